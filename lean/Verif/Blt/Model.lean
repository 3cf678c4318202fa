import Verif.Np
import Verif.BltAxis.Model

/-!
Model of `UVData.reorder_blts` (src/pyuvdata/uvdata/uvdata.py 3824–4056) and `set_rectangularity` (3780–3806)
on the struct-of-arrays object.

Real-valued quantities are values of an ordered type `R` (only compared); a uvw vector is a value of `V`; one
`[i, :, :]` row of the data, flag and nsample arrays is a value of `D`, `F`, `N`.  The optional
`conj_convention` step (3946–3949) is `Verif.Conj` (run before), the final `check` is not modelled.
-/
namespace Verif.Blt
open Verif.Np
open Verif.BltAxis (Key determineRectangularity)

/-- The baseline-time arrays of a `UVData` object, uvdata.py 4031–4046, each stored separately as in the code;
`vis` is `none` for a metadata-only object. -/
structure Obj (R V D F N : Type) where
  ant1 : List Nat
  ant2 : List Nat
  bl : List Nat
  uvw : List V
  time : List R
  lst : List R
  integ : List R
  appRa : List R
  appDec : List R
  framePa : List R
  pcId : List Nat
  vis : Option (List D × List F × List N)
  nbls : Nat
  ntimes : Nat
  bltOrder : Option (List Key)
  /-- `blts_are_rectangular`, `time_axis_faster_than_bls`. -/
  rect : Option (Bool × Bool)
  deriving DecidableEq

variable {R V D F N : Type} [LinearOrder R]

/-- `Nblts`, the length of every array (uvdata.py 3897). -/
def Obj.nblts (o : Obj R V D F N) : Nat := o.time.length

/-- The `order` argument, uvdata.py 3895–3917 (entries of an index array are non-negative here). -/
inductive Order where
  | time | baseline | ant1 | ant2 | bda
  | index (l : List Nat)
  deriving DecidableEq

/-- The `ValueError`s (uvdata.py 3903, 3908, 3913, 3924, 3929, 3935) of `reorder_blts` and numpy's `IndexError`. -/
inductive Err | badIndex | badMinor | outOfRange
  deriving DecidableEq

/-- The sort arrays (uvdata.py 3976–4020): the four names plus `integration_time`. -/
inductive SKey | time | baseline | ant1 | ant2 | integ
  deriving DecidableEq, Repr

/-- `order` as the name it shares with `minor_order`, uvdata.py 3919. -/
def Order.key : Order → Option Key
  | .time => some .time | .baseline => some .baseline | .ant1 => some .ant1 | .ant2 => some .ant2
  | .bda => none | .index _ => none

/-- Validation and default of `minor_order`, uvdata.py 3895–3944. -/
def resolveMinor (nblts : Nat) (order : Order) (minor : Option Key) : Except Err (Option Key) :=
  match order with
  | .index l =>
    if l.length ≠ nblts then .error .badIndex                           -- 3897–3906
    else if minor.isSome then .error .badMinor                          -- 3907–3910
    else .ok none
  | order =>
    let minor := if minor.isSome && minor == order.key then none else minor     -- 3919–3920
    match minor with
    | some m =>
      if order = .bda then .error .badMinor                             -- 3928–3932
      else if order = .baseline ∧ (m = .ant1 ∨ m = .ant2) then .error .badMinor -- 3933–3935
      else .ok (some m)
    | none => .ok (match order with                                     -- 3936–3944
      | .time => some .baseline | .ant1 => some .ant2 | .ant2 => some .ant1 | .baseline => some .time
      | _ => none)

/-- Comparison of two array entries; positions outside the array do not occur in the code (they are put
first here). -/
def entryLe {β : Type} [LinearOrder β] : Option β → Option β → Bool
  | some x, some y => decide (x ≤ y)
  | none, _ => true
  | some _, none => false

/-- `arr[i] <= arr[j]` for one of the sort arrays, uvdata.py 3976–4020. -/
def leAt (o : Obj R V D F N) (k : SKey) (i j : Nat) : Bool :=
  match k with
  | .time => entryLe o.time[i]? o.time[j]?
  | .baseline => entryLe o.bl[i]? o.bl[j]?
  | .ant1 => entryLe o.ant1[i]? o.ant1[j]?
  | .ant2 => entryLe o.ant2[i]? o.ant2[j]?
  | .integ => entryLe o.integ[i]? o.integ[j]?

/-- `(arr1, arr2, arr3)`, uvdata.py 3976–4020. -/
def sortArrays (order : Order) (minor : Option Key) : SKey × SKey × SKey :=
  match order with
  | .time =>
    if minor = some .ant1 then (.time, .ant1, .ant2)
    else if minor = some .ant2 then (.time, .ant2, .ant1)
    else (.time, .baseline, .baseline)
  | .ant1 =>
    if minor = some .time then (.ant1, .time, .ant2)
    else if minor = some .ant2 then (.ant1, .ant2, .time)
    else (.ant1, .baseline, .time)
  | .ant2 =>
    if minor = some .time then (.ant2, .time, .ant1)
    else if minor = some .ant1 then (.ant2, .ant1, .time)
    else (.ant2, .baseline, .time)
  | .baseline => (.baseline, .time, .time)
  | .bda => (.integ, .baseline, .time)
  | .index _ => (.time, .time, .time)     -- not reached

/-- The comparison of `np.lexsort` (called at uvdata.py 4024): first key decides, ties go to the next. -/
def lexB (les : List (Nat → Nat → Bool)) (i j : Nat) : Bool :=
  match les with
  | [] => true
  | le :: rest => if le i j then (if le j i then lexB rest i j else true) else false

/-- `inds_use[np.lexsort((arr3, arr2, arr1))]`, uvdata.py 4024: a stable sort of the positions in `inds`. -/
def lexsort (o : Obj R V D F N) (k : SKey × SKey × SKey) (inds : List Nat) : List Nat :=
  inds.insertionSort (fun i j => lexB [leAt o k.1, leAt o k.2.1, leAt o k.2.2] i j = true)

/-- `index_array`, uvdata.py 3962–4028. -/
def indexArray (o : Obj R V D F N) (order : Order) (minor : Option Key) (autosFirst : Bool) : List Nat :=
  match order with
  | .index l => l
  | order =>
    let pairs := o.ant1.zip o.ant2
    let parts := if autosFirst then
        [whereIdx (fun p : Nat × Nat => decide (p.1 = p.2)) pairs, whereIdx (fun p : Nat × Nat => decide (p.1 ≠ p.2)) pairs]
      else [List.range o.nblts]
    (parts.map (lexsort o (sortArrays order minor))).flatten

/-- Fancy-index every array, uvdata.py 4031–4046. -/
def permute (o : Obj R V D F N) (idx : List Nat) : Option (Obj R V D F N) := do
  let ant1 ← take? o.ant1 idx
  let ant2 ← take? o.ant2 idx
  let bl ← take? o.bl idx
  let uvw ← take? o.uvw idx
  let time ← take? o.time idx
  let lst ← take? o.lst idx
  let integ ← take? o.integ idx
  let appRa ← take? o.appRa idx
  let appDec ← take? o.appDec idx
  let framePa ← take? o.framePa idx
  let pcId ← take? o.pcId idx
  let vis ← match o.vis with
    | none => some none
    | some (d, f, n) => do
      let d ← take? d idx
      let f ← take? f idx
      let n ← take? n idx
      some (some (d, f, n))
  some { o with ant1, ant2, bl, uvw, time, lst, integ, appRa, appDec, framePa, pcId, vis }

/-- `set_rectangularity(force=True)`, uvdata.py 3795–3806. -/
def setRectangularity (o : Obj R V D F N) : Obj R V D F N :=
  { o with rect := some (determineRectangularity o.time o.bl o.nbls o.ntimes o.bltOrder) }

/-- `self.blt_order`, uvdata.py 3951–3960.  "bda" is not one of the four names and is recorded as no known
order (only the two-name tuples matter to `set_rectangularity`). -/
def newBltOrder (order : Order) (minor : Option Key) : Option (List Key) :=
  match order.key, minor with
  | some k, some m => some [k, m]
  | some k, none => some [k]
  | none, _ => none

/-- `reorder_blts`, uvdata.py 3824–4056. -/
def reorderBlts (o : Obj R V D F N) (order : Order) (minor : Option Key) (autosFirst : Bool) :
    Except Err (Obj R V D F N) := do
  let minor ← resolveMinor o.nblts order minor
  match permute { o with bltOrder := newBltOrder order minor } (indexArray o order minor autosFirst) with
  | none => .error .outOfRange
  | some o' => .ok (setRectangularity o')

end Verif.Blt
