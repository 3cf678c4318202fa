import Verif.Add.Props
import Verif.FreqSort.Reorder

/-!
Model of `UVCal.__add__`, `src/pyuvdata/uvcal/uvcal.py` lines 2584–3401, for objects with data, and of `_check_range_overlap`,
`src/pyuvdata/utils/tools.py` lines 271–302.

* An array over antennas, channels, times and Jones components is a function of four positions; its shape is that of the label lists. For a
  wide-band object the second axis are spectral windows. `V` is a solution together with its flag; `blank` is zero and flagged.
* A `Row` holds what is kept for one time; the arrays it stands for are treated by the code in the same way (3089–3120, 3317–3330). The label of a
  time is `time_array`, or the start of `time_range`.
* What the code does along one axis is a `Plan` of `Verif.Add`: lines 2801–2853, 2860–2925, 3234–3254 are those of `UVData.__add__` for
  polarizations, and for channels, with other names. The `reorder_*` methods are called with index arrays (see `Verif.CalSort`).
* Frequencies and times are compared exactly, as in the code.
* Left out: `check`, the comparison of the telescope and of other attributes (2637–2708; they can only raise), merging of phase center catalogs
  (modelled in `Verif.PhaseCat`), history, file names, counts, warnings.
-/
namespace Verif.CalAdd
open Verif.Np Verif.FreqSort Verif.Add

abbrev Arr4 (α : Type) := Nat → Nat → Nat → Nat → α

/-- What an object has for one time: `time_array` or `time_range`, `phase_center_id_array`, `ref_antenna_array` (if set); `rest` are LSTs and the
integration time. -/
structure Row (K R : Type) where
  time : K
  stop : Option K
  center : Option Int
  ref : Option Int
  rest : R
deriving DecidableEq

/-- A calibration object. Channels have `freq`, `width`, `ids`; windows of a wide-band object have `ranges`. -/
structure Obj (K R V Q : Type) where
  wide : Bool
  delay : Bool
  ranged : Bool
  ants : List Int
  freq : List K
  ids : List Int
  width : List K
  ranges : List (K × K)
  spws : List Int
  flexJones : Option (List Int)
  times : List (Row K R)
  jones : List Int
  data : Arr4 V
  quality : Option (Arr4 Q)
  total : Option (Arr Q)

inductive Err where
  | flex | wide | timeKind | illFormed | timeRange | overlap | center | ref | total
deriving DecidableEq

/-- `np.argsort`. -/
structure Sorts (K : Type) [LinearOrder K] where
  int : Argsort Int
  num : Argsort K

variable {K R V Q : Type} [LinearOrder K]

/-! ### Ranges -/

/-- tools.py 298–302: two ranges that follow each other overlap. -/
def adjacent : List (K × K) → Bool
  | a :: b :: l => decide (b.1 < a.2) || adjacent (b :: l)
  | _ => false

/-- `_check_range_overlap`, tools.py 271–302. -/
def rangeOverlap (s : Argsort K) (l : List (K × K)) : Except Err Bool :=
  if l.any (fun r => decide (r.2 < r.1)) then .error .illFormed                                   -- 288–292
  else .ok (adjacent (fancy l (s.run (l.map Prod.fst))))                                          -- 295–302

/-! ### Axes -/

/-- Antennas, times, Jones components, and windows of wide-band objects. -/
def axisPlan {κ : Type} [LinearOrder κ] (order : List κ → List Nat) (A B : List κ) : Plan :=
  let ia := overlapInds (inter A B) A
  let ib := overlapInds (inter A B) B
  let new := newInds A B
  let perm := reorderInds A.length ia ib
  let padded := fancy A perm ++ fancy B new
  { ia, ib, new, perm, t2o := t2o padded B, order := if new = [] then List.range A.length else order padded }

/-- Lines 2759–2761, 2801–2811, 2860–2866, 2944–2949, 3254. -/
def antPlan (so : Sorts K) (this other : Obj K R V Q) : Plan := axisPlan so.int.run this.ants other.ants

/-- Lines 2715–2717, 2844–2853, 2916–2925, 3174–3179, 3234: sorted by absolute value. -/
def jonesPlan (so : Sorts K) (this other : Obj K R V Q) : Plan := axisPlan (fun l => so.int.run (l.map (fun j => |j|))) this.jones other.jones

/-- The labels of the times. -/
def Obj.keys (o : Obj K R V Q) : List K := o.times.map Row.time

/-- `time_range`. -/
def Obj.timeRanges (o : Obj K R V Q) : List (K × K) := o.times.map (fun r => (r.time, r.stop.getD r.time))

/-- Lines 3235–3241. -/
def timeT2o (this other : Obj K R V Q) (p : Plan) : List Nat :=
  if this.ranged then
    whereIdx (fun r : Row K R => other.keys.contains r.time && (other.times.map Row.stop).contains r.stop) (fancy this.times p.perm ++ fancy other.times p.new)
  else p.t2o

/-- Lines 2719–2730, 2813–2823, 2868–2883, 3088–3117, 3235–3241. -/
def timePlan (so : Sorts K) (this other : Obj K R V Q) : Plan :=
  let p := axisPlan so.num.run this.keys other.keys
  { p with t2o := timeT2o this other p }

/-- The channels of the object, as `Verif.Add` has them. -/
def Obj.chans (o : Obj K R V Q) : Add.Obj Unit K Unit :=
  { blt := [], uvw := [], lst := [], pc := [], freq := o.freq, spw := o.ids, width := o.width, spws := o.spws, pol := []
    data := fun _ _ _ => (), flag := fun _ _ _ => true, nsample := fun _ _ _ => () }

/-- The windows of the channels in ascending order, lines 3015–3018. -/
def sortedWins (ids : List Int) : List Int := (firstAppearance ids).insertionSort (· ≤ ·)

/-- Channels: lines 2738–2757, 2825–2842, 2896–2914, 3002–3050, 3246–3253. -/
def chanPlan (so : Sorts K) (this other : Obj K R V Q) : Plan :=
  let p := Add.freqPlan so.num this.chans other.chans
  let freq := fancy this.freq p.perm ++ fancy other.freq p.new
  let ids := fancy this.ids p.perm ++ fancy other.ids p.new
  { p with order := if p.new = [] then List.range this.freq.length else freqOrder so.num freq ids (sortedWins ids) }

/-- Windows of a wide-band object: lines 2732–2736, 2825–2835, 2885–2895, 2989–3001, 3243–3244. -/
def widePlan (so : Sorts K) (this other : Obj K R V Q) : Plan := axisPlan so.int.run this.spws other.spws

def freqPlan (so : Sorts K) (this other : Obj K R V Q) : Plan := if this.wide then widePlan so this other else chanPlan so this other

/-! ### Arrays -/

def reindex4 {α : Type} (p q r s : List Nat) (a : Arr4 α) : Arr4 α := fun i j k l => a (p.getD i 0) (q.getD j 0) (r.getD k 0) (s.getD l 0)

/-- Lines 2950–2972, 3052–3072, 3122–3154, 3180–3212. -/
def padArr4 {α : Type} (na nf nt nj : Nat) (v : α) (a : Arr4 α) : Arr4 α :=
  fun i j k l => if i < na ∧ j < nf ∧ k < nt ∧ l < nj then a i j k l else v

/-- `a[np.ix_(p, q, r, s)] = b`, lines 3255–3269. -/
def assign4 {α : Type} (p q r s : List Nat) (a b : Arr4 α) : Arr4 α := fun i j k l =>
  if i ∈ p ∧ j ∈ q ∧ k ∈ r ∧ l ∈ s then b (p.idxOf i) (q.idxOf j) (r.idxOf k) (s.idxOf l) else a i j k l

/-- `b` is `None` if the other object has no such array. -/
def assignOpt4 {α : Type} (p q r s : List Nat) (a : Arr4 α) : Option (Arr4 α) → Arr4 α
  | none => a
  | some b => assign4 p q r s a b

def mergeArr4 {α : Type} (pad : α) (na nf nt nj : Nat) (pa pf pt pj : Plan) (a : Arr4 α) (b : Option (Arr4 α)) : Arr4 α :=
  reindex4 (effOrder pa) (effOrder pf) (effOrder pt) (effOrder pj)
    (assignOpt4 pa.t2o pf.t2o pt.t2o pj.t2o (padArr4 na nf nt nj pad (reindex4 pa.perm pf.perm pt.perm pj.perm a)) b)

/-- Lines 3074–3086, 3156–3172, 3214–3230, 3270–3274 for `total_quality_array`. -/
def mergeTotal {α : Type} (pad : α) (nf nt nj : Nat) (pf pt pj : Plan) (a : Arr α) (b : Option (Arr α)) : Arr α :=
  match b with
  | some b => mergeArr pad nf nt nj pf pt pj a b
  | none => reindex (effOrder pf) (effOrder pt) (effOrder pj) (padArr nf nt nj pad (reindex pf.perm pt.perm pj.perm a))

/-! ### Spectral windows -/

/-- `spw_array` and `flex_jones_array` after lines 2837–2842: `reorder_freqs` of an object with channels changes them if it changes the order. -/
def movedWins (this : Obj K R V Q) (perm : List Nat) : List Int × Option (List Int) :=
  if perm = List.range this.freq.length ∨ this.spws.length ≤ 1 then (this.spws, this.flexJones)
  else
    let ids := fancy this.ids perm
    let wins := fancy ids (firstIndices ids)
    (wins, this.flexJones.map (fun j => fancy j (wins.map (fun w => this.spws.idxOf w))))

/-- Lines 3013–3030. -/
def mergedWins (this other : Obj K R V Q) (p : Plan) : List Int × Option (List Int) :=
  let m := movedWins this p.perm
  if p.new = [] then m
  else
    let wins := sortedWins (fancy this.ids p.perm ++ fancy other.ids p.new)
    let concat := wins ++ other.spws                                                              -- 3020
    (wins, m.2.map (fun j => fancy (j ++ other.flexJones.getD []) (wins.map (fun w => concat.idxOf w))))

/-- Lines 2989–3000 and 3311: the Jones components of the windows of a wide-band object are not put in the new order. -/
def wideJones (this other : Obj K R V Q) (p : Plan) : Option (List Int) :=
  this.flexJones.map (fun j => fancy j p.perm ++ fancy (other.flexJones.getD []) p.new)

/-! ### `__add__` -/

/-- Lines 2719–2723. -/
def timeGuard (so : Sorts K) (this other : Obj K R V Q) : Except Err Unit :=
  if this.ranged then
    match rangeOverlap so.num (this.timeRanges ++ other.timeRanges) with
    | .error e => .error e
    | .ok true => .error .timeRange
    | .ok false => .ok ()
  else .ok ()

/-- Lines 2777–2797: an array along the times differs at shared times. -/
def rowsDiffer (f : Row K R → Option Int) (this other : Obj K R V Q) (p : Plan) : Bool :=
  decide ((fancy this.times p.ia).map f ≠ (fancy other.times p.ib).map f)

/-- Length of the second axis. -/
def Obj.nf (o : Obj K R V Q) : Nat := if o.wide then o.spws.length else o.freq.length

/-- Lines 2927–2932: `Nfreqs` of a wide-band object is 1. -/
def Obj.nfTotal (o : Obj K R V Q) : Nat := if o.delay ∨ o.wide then 1 else o.freq.length

/-- Lines 2974–2985, 3074–3086, 3156–3172, 3214–3230 end with an exception: `quality_array` is used for its shape although it is not set, or an array of
zeros with the wrong number of windows is made. -/
def totalFails (this other : Obj K R V Q) (pa pt : Plan) : Bool :=
  decide (pa.new = []) && (this.total.isSome || other.total.isSome) &&
    ((decide (pt.new ≠ []) && !(this.quality.isSome || other.quality.isSome)) || (!this.total.isSome && decide (this.nfTotal ≠ this.nf)))

variable [Zero Q]

/-- `__add__`. -/
def add (so : Sorts K) (blank : V) (this other : Obj K R V Q) : Except Err (Obj K R V Q) :=
  let pa := antPlan so this other
  let pf := freqPlan so this other
  let pt := timePlan so this other
  let pj := jonesPlan so this other
  if this.flexJones.isSome ≠ other.flexJones.isSome then .error .flex                             -- 2647–2651
  else if this.wide ≠ other.wide then .error .wide                                                -- 2672–2676
  else if this.ranged ≠ other.ranged then .error .timeKind                                        -- 2679
  else match timeGuard so this other with
  | .error e => .error e
  | .ok () =>
    if pj.ia ≠ [] ∧ pt.ia ≠ [] ∧ pf.ia ≠ [] ∧ pa.ia ≠ [] then .error .overlap                     -- 2762–2769
    else if rowsDiffer Row.center this other pt then .error .center                               -- 2777–2787
    else if rowsDiffer Row.ref this other pt then .error .ref                                     -- 2789–2797
    else if totalFails this other pa pt then .error .total
    else
      let na := this.ants.length
      let nf := this.nf
      let nt := this.times.length
      let nj := this.jones.length
      .ok {
        wide := this.wide
        delay := this.delay
        ranged := this.ranged
        ants := mergeRow pa this.ants other.ants
        freq := if this.wide then this.freq else mergeRow pf this.freq other.freq
        ids := if this.wide then this.ids else mergeRow pf this.ids other.ids
        width := if this.wide then this.width else mergeRow pf this.width other.width
        ranges := if this.wide then mergeRow pf this.ranges other.ranges else this.ranges
        spws := if this.wide then mergeRow pf this.spws other.spws else (mergedWins this other pf).1
        flexJones := if this.wide then wideJones this other pf else (mergedWins this other pf).2
        times := mergeRow pt this.times other.times
        jones := mergeRow pj this.jones other.jones
        data := mergeArr4 blank na nf nt nj pa pf pt pj this.data (some other.data)
        quality :=
          if this.quality.isSome || other.quality.isSome then
            some (mergeArr4 0 na nf nt nj pa pf pt pj (this.quality.getD (fun _ _ _ _ => 0)) other.quality)
          else none
        total :=
          if pa.new = [] ∧ (this.total.isSome ∨ other.total.isSome) then
            some (mergeTotal 0 nf nt nj pf pt pj (this.total.getD (fun _ _ _ => 0)) other.total)
          else if pa.new = [] then this.total else none }

end Verif.CalAdd
