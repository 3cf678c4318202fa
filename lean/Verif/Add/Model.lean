import Verif.Add.Axis

/-!
Model of `UVData.__add__`, uvdata.py 5231–5821, for objects with data.

* An array over baseline-times, channels and polarizations is a function of three positions; its shape is that of the label
  lists.
* A baseline-time label is what the code makes of time and baseline number, lines 5320–5335.
* Of the arrays along the baseline-time axis three are kept (`uvw`, `lst`, `pc`); the others are treated by the code in the
  same way.
* `np.argsort` is any sorting function (`Argsort`).
* Left out: `check`, the comparison of `vis_units`, `telescope` and of the metadata of shared samples (they can only raise),
  merging of phase center catalogs (modelled in `Verif.PhaseCat`), flexible polarizations, history, file names, counts.
-/
namespace Verif.Add
open Verif.Np Verif.FreqSort

variable {ρ K V : Type} [LinearOrder ρ] [LinearOrder K]

abbrev Arr (α : Type) := Nat → Nat → Nat → α

structure Obj (ρ K V : Type) where
  blt : List ρ
  uvw : List K
  lst : List K
  pc : List Int
  freq : List K
  spw : List Int
  width : List K
  spws : List Int
  pol : List Int
  data : Arr V
  flag : Arr Bool
  nsample : Arr V

/-- Labels of the channels. -/
def Obj.chan (o : Obj ρ K V) : List (Int × K) := o.spw.zip o.freq

/-- Values of `np.intersect1d`. -/
def inter {κ : Type} [LinearOrder κ] (A B : List κ) : List κ := (unique A).filter (fun x => B.contains x)

/-- Positions of one spectral window, line 5351. -/
def winInds (o : Obj ρ K V) (w : Int) : List Nat := whereIdx (fun v => decide (v = w)) o.spw

/-- Frequencies of one spectral window. -/
def winFreqs (o : Obj ρ K V) (w : Int) : List K := fancy o.freq (winInds o w)

/-- Lines 5350–5360: overlap indices of `o` with `p` along frequency; `first` is the object that gives the order of windows. -/
def freqOverlap (this other : Obj ρ K V) (o : Obj ρ K V) : List Nat :=
  (inter this.spws other.spws).flatMap (fun w =>
    fancy (winInds o w) (overlapInds (inter (winFreqs this w) (winFreqs other w)) (winFreqs o w)))

/-- One axis: overlap indices in this and in the other object, `temp_ind`, new positions of the other object, positions that
take the data of the other object, final order. -/
structure Plan where
  ia : List Nat
  ib : List Nat
  perm : List Nat
  new : List Nat
  t2o : List Nat
  order : List Nat

/-- Baseline-times: lines 5362–5364, 5406–5413, 5552–5562, 5588–5590, 5723. `this_blts` keeps its order when the object is
reordered. -/
def bltPlan (sB : Argsort ρ) (this other : Obj ρ K V) : Plan :=
  let A := this.blt
  let B := other.blt
  let ia := overlapInds (inter A B) A
  let ib := overlapInds (inter A B) B
  let new := newInds A B
  let padded := A ++ fancy B new
  { ia, ib, new, perm := reorderInds A.length ia ib, t2o := t2o padded B,
    order := if new = [] then List.range A.length else sB.run padded }

/-- Polarizations: lines 5337–5339, 5487–5498, 5575–5584, 5692–5696, 5710–5712. -/
def polPlan (sP : Argsort Int) (this other : Obj ρ K V) : Plan :=
  let A := this.pol
  let B := other.pol
  let ia := overlapInds (inter A B) A
  let ib := overlapInds (inter A B) B
  let new := newInds A B
  let perm := reorderInds A.length ia ib
  let padded := fancy A perm ++ fancy B new
  { ia, ib, new, perm, t2o := t2o padded B,
    order := if new = [] then List.range A.length else sP.run (padded.map (fun p => |p|)) }

/-- Lines 5460–5467: channels of the other object that are new. -/
def freqNew (this other : Obj ρ K V) : List Nat :=
  whereIdx (fun c : Int × K => !((inter this.spws other.spws).contains c.1 && (winFreqs this c.1).contains c.2)) other.chan

/-- Lines 5649–5652: spectral windows in order of first appearance. -/
def firstAppearance (ids : List Int) : List Int := ids.reverse.dedup.reverse

/-- Lines 5670–5677: one window. -/
def sortWin (sF : Argsort K) (freq : List K) (spw : List Int) (ord : List Nat) (w : Int) : List Nat :=
  let mask := (fancy spw ord).map (fun v => v == w)
  let sub := sel mask ord
  let fr := fancy freq sub
  if ¬fr.IsChain (· < ·) ∧ ¬fr.IsChain (· > ·) then put mask ord (fancy sub (sF.run fr)) else ord

/-- Lines 5660–5677. -/
def freqOrder (sF : Argsort K) (freq : List K) (spw spws : List Int) : List Nat :=
  spws.foldl (sortWin sF freq spw)
    ((spws.insertionSort (· ≤ ·)).flatMap (fun w => whereIdx (fun v => decide (v = w)) spw))

/-- Windows after padding, line 5652. -/
def padSpws (this : Obj ρ K V) (new : List Nat) (spw : List Int) : List Int :=
  if new = [] then this.spws else firstAppearance spw

/-- Lines 5716–5722. -/
def freqT2o (spws : List Int) (chan : List (Int × K)) (other : Obj ρ K V) : List Nat :=
  whereIdx (fun c : Int × K => (spws.contains c.1 && other.spws.contains c.1) && (winFreqs other c.1).contains c.2) chan

/-- Channels: lines 5346–5360, 5460–5476, 5564–5573, 5635–5677, 5716–5722. -/
def freqPlan (sF : Argsort K) (this other : Obj ρ K V) : Plan :=
  let ia := freqOverlap this other this
  let ib := freqOverlap this other other
  let new := freqNew this other
  let perm := reorderInds this.freq.length ia ib
  let freq := fancy this.freq perm ++ fancy other.freq new
  let spw := fancy this.spw perm ++ fancy other.spw new
  let spws := padSpws this new spw
  { ia, ib, new, perm, t2o := freqT2o spws (spw.zip freq) other,
    order := if new = [] then List.range this.freq.length else freqOrder sF freq spw spws }

/-! ### Data -/

/-- Reorder along all axes. -/
def reindex {α : Type} (p q r : List Nat) (a : Arr α) : Arr α := fun i j k => a (p.getD i 0) (q.getD j 0) (r.getD k 0)

/-- Lines 5591–5599, 5679–5689, 5697–5707. -/
def padArr {α : Type} (nb nf np : Nat) (v : α) (a : Arr α) : Arr α := fun i j k => if i < nb ∧ j < nf ∧ k < np then a i j k else v

/-- `a[np.ix_(p, q, r)] = b`, lines 5726–5728. -/
def assign {α : Type} (p q r : List Nat) (a b : Arr α) : Arr α := fun i j k =>
  if i ∈ p ∧ j ∈ q ∧ k ∈ r then b (p.idxOf i) (q.idxOf j) (r.idxOf k) else a i j k

/-- Lines 5736–5743: the order is not applied if all its steps are 1. -/
def effOrder (p : Plan) : List Nat :=
  if p.new = [] then p.order
  else if 2 ≤ p.order.length ∧ p.order.IsChain (fun a b => b = a + 1) then List.range p.order.length
  else p.order

def mergeArr {α : Type} (pad : α) (nb nf np : Nat) (pb pf pp : Plan) (a b : Arr α) : Arr α :=
  reindex (effOrder pb) (effOrder pf) (effOrder pp)
    (assign pb.t2o pf.t2o pp.t2o (padArr nb nf np pad (reindex pb.perm pf.perm pp.perm a)) b)

/-- An array along one axis, e.g. lines 5600–5632. -/
def mergeRow {α : Type} (p : Plan) (a b : List α) : List α := fancy (fancy a p.perm ++ fancy b p.new) p.order

inductive Err where
  | swapOrder | overlap
deriving DecidableEq

/-- All values at the given positions, lines 5369–5388. -/
def allAt {α : Type} (p q r : List Nat) (a : Arr α) (f : α → Bool) : Bool := p.all (fun i => q.all (fun j => r.all (fun k => f (a i j k))))

variable [Zero V] [DecidableEq V]

/-- Lines 5365–5403. -/
def guard (this other : Obj ρ K V) (pb pf pp : Plan) : Except Err Unit :=
  if pp.ia ≠ [] ∧ pf.ia ≠ [] ∧ pb.ia ≠ [] then
    if allAt pb.ia pf.ia pp.ia this.data (fun v => decide (v = 0)) && allAt pb.ia pf.ia pp.ia this.flag id then .ok ()
    else if allAt pb.ib pf.ib pp.ib other.data (fun v => decide (v = 0)) && allAt pb.ib pf.ib pp.ib other.flag id then
      .error .swapOrder
    else .error .overlap
  else .ok ()

/-- `__add__`. -/
def add (sB : Argsort ρ) (sP : Argsort Int) (sF : Argsort K) (this other : Obj ρ K V) : Except Err (Obj ρ K V) :=
  let pb := bltPlan sB this other
  let pf := freqPlan sF this other
  let pp := polPlan sP this other
  match guard this other pb pf pp with
  | .error e => .error e
  | .ok () =>
    let nb := this.blt.length
    let nf := this.freq.length
    let np := this.pol.length
    .ok {
      blt := mergeRow pb this.blt other.blt
      uvw := mergeRow pb this.uvw other.uvw
      lst := mergeRow pb this.lst other.lst
      pc := mergeRow pb this.pc other.pc
      freq := mergeRow pf this.freq other.freq
      spw := mergeRow pf this.spw other.spw
      width := mergeRow pf this.width other.width
      spws := padSpws this pf.new (fancy this.spw pf.perm ++ fancy other.spw pf.new)
      pol := mergeRow pp this.pol other.pol
      data := mergeArr 0 nb nf np pb pf pp this.data other.data
      flag := mergeArr true nb nf np pb pf pp this.flag other.flag
      nsample := mergeArr 0 nb nf np pb pf pp this.nsample other.nsample }

end Verif.Add
