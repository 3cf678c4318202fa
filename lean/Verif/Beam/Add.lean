import Verif.Beam.Spec
import Verif.Add.Axis

/-!
Model of `UVBeam.__add__`, `src/pyuvdata/uvbeam/uvbeam.py` lines 2346–2888.

* Objects are those of `Verif.Beam.Model`. What is done for the image axes and for the pixels is the same code with other names.
* `np.argsort` is any sorting function.
* The method is the one that works in place (`+=`); `+` works on a copy.
* Left out: `check` except for the shapes, the comparison of the other attributes (2402–2430; it can only raise), types of numbers, history, file
  names, warnings.
-/
namespace Verif.Beam
open Verif.Np Verif.FreqSort Verif.Add

/-- What is done along one axis: new positions of the other object, order after padding, labels of the result, positions that get the values of the
other object. -/
structure Ax (κ : Type) where
  new : List Nat
  order : List Nat
  labels : List κ
  t2o : List Nat

/-- Lines 2494–2556, 2569–2573, 2602–2606, 2634–2638, 2667–2671, 2715–2727, 2760–2798. -/
def axisAdd {κ : Type} [DecidableEq κ] (argsort : List κ → List Nat) (A B : List κ) : Ax κ :=
  let new := newInds A B
  let all := A ++ fancy B new
  let order := if new = [] then List.range A.length else argsort all
  { new, order, labels := fancy all order, t2o := t2o (fancy all order) B }

structure Sorts (K : Type) [LinearOrder K] where
  int : Argsort Int
  num : Argsort K

variable {K V B C X : Type} [LinearOrder K]

/-- Polarizations are sorted by absolute value, feeds by the alphabet. -/
def polAx (so : Sorts K) (this other : Obj K V B C X) : Ax Int :=
  axisAdd (fun l => so.int.run (if this.power then l.map (fun p => |p|) else l)) this.pols other.pols

def freqAx (so : Sorts K) (this other : Obj K V B C X) : Ax K := axisAdd so.num.run this.freqs other.freqs
def ax2Ax (so : Sorts K) (this other : Obj K V B C X) : Ax K := axisAdd so.num.run this.ax2 other.ax2
def ax1Ax (so : Sorts K) (this other : Obj K V B C X) : Ax K := axisAdd so.num.run this.ax1 other.ax1

/-- Zeros appended to an array of length `n` along one axis, and the new order. -/
def padSort {κ β : Type} (a : Ax κ) (n : Nat) (zero : β) (f : Nat → β) : Nat → β := fun i =>
  if a.order.getD i 0 < n then f (a.order.getD i 0) else zero

/-- Lines 2558–2757 for `data_array`: one axis after the other. -/
def padData [Zero V] (p : Ax Int) (f y x : Ax K) (this : Obj K V B C X) : Nat → Nat → Nat → Nat → V :=
  let d1 := fun i j k => padSort x this.ax1.length 0 (this.data i j k)
  let d2 := fun i j => padSort y this.ax2.length (fun _ => 0) (d1 i j)
  let d3 := fun i => padSort f this.freqs.length (fun _ _ => 0) (d2 i)
  padSort p this.pols.length (fun _ _ _ => 0) d3

/-- `a[np.ix_(t2o)] = b` along one axis: position in the other object, if there is one. -/
def source {κ : Type} (a : Ax κ) (i : Nat) : Option Nat := if i ∈ a.t2o then some (a.t2o.idxOf i) else none

/-- Lines 2784–2801. -/
def mergeData [Zero V] (p : Ax Int) (f y x : Ax K) (this other : Obj K V B C X) : Nat → Nat → Nat → Nat → V := fun i j k l =>
  match source p i, source f j, source y k, source x l with
  | some i', some j', some k', some l' => other.data i' j' k' l'
  | _, _, _, _ => padData p f y x this i j k l

/-- Lines 2673–2694, 2807–2817. -/
def mergeFreq {β : Type} (f : Ax K) (n : Nat) (zero : β) (a b : Nat → β) : Nat → β := fun j =>
  match source f j with
  | some j' => b j'
  | none => padSort f n zero a j

/-- Lines 2579–2591, 2611–2623, 2644–2656, 2790–2793, 2802–2805: nothing is done for power beams. -/
def mergeBasis [Zero B] (y x : Ax K) (this other : Obj K V B C X) : Option (Nat × Nat × (Nat → Nat → B)) :=
  if this.power then this.basis
  else match this.basis, other.basis with
    | some a, some b => some (y.labels.length, x.labels.length, fun k l =>
      match source y k, source x l with
      | some k', some l' => b.2.2 k' l'
      | _, _ => padSort y this.ax2.length (fun _ => 0) (fun k => padSort x this.ax1.length 0 (a.2.2 k)) k l)
    | _, _ => this.basis

/-- Lines 2695–2704, 2729–2753, 2819–2828. -/
def mergeCoupling [Zero C] (p : Ax Int) (f : Ax K) (this other : Obj K V B C X) : Option (Nat → Nat → Nat → C) :=
  match this.coupling, other.coupling with
  | some a, some b => some (fun i i' j =>
    match source p i, source p i', source f j with
    | some m, some m', some n => b m m' n
    | _, _, _ =>
      padSort p this.pols.length (fun _ _ => 0)
        (fun i => padSort p this.pols.length (fun _ => 0) (fun i' => padSort f this.freqs.length 0 (a i i'))) i i' j)
  | _, _ => this.coupling

/-- Lines 2434–2453: what only one of the two objects has is dropped. -/
def dropExtra (this other : Obj K V B C X) : Obj K V B C X := if other.extra.isNone then { this with extra := none } else this

/-- Labels in common, lines 2459–2471. -/
def common {κ : Type} [DecidableEq κ] (A B : List κ) : Bool := A.any (fun a => B.contains a)

inductive AddErr where
  | attr | overlap | shape
deriving DecidableEq

variable [Zero K] [Zero V] [Zero B] [Zero C] [Zero X]

/-- Lines 2494–2830. -/
def combine (so : Sorts K) (this other : Obj K V B C X) : Obj K V B C X :=
  let p := polAx so this other
  let f := freqAx so this other
  let y := ax2Ax so this other
  let x := ax1Ax so this other
  { this with
    pols := p.labels
    npol := p.labels.length
    freqs := f.labels
    ax2 := y.labels
    ax1 := x.labels
    data := mergeData p f y x this other
    bandpass := mergeFreq f this.freqs.length 0 this.bandpass other.bandpass
    extra := match this.extra, other.extra with
      | some a, some b => some (mergeFreq f this.freqs.length 0 a b)
      | _, _ => this.extra
    basis := mergeBasis y x this other
    coupling := mergeCoupling p f this other }

/-- `__iadd__`. -/
def add (so : Sorts K) (runCheck : Bool) (this other : Obj K V B C X) : Obj K V B C X × Option AddErr :=
  if this.power ≠ other.power ∨ this.healpix ≠ other.healpix then (this, some .attr)              -- 2402–2430
  else
    let that := dropExtra this other
    if common this.pols other.pols && common this.freqs other.freqs && common this.ax1 other.ax1 && common this.ax2 other.ax2 then
      (that, some .overlap)                                                                       -- 2473–2487
    else
      let r := combine so that other
      if runCheck && !r.shapes then (r, some .shape) else (r, none)                               -- 2869–2873

end Verif.Beam
