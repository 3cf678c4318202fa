import Verif.Hdf5.Model

/-!
What a per-axis selection means: the list of positions it names, in order.
-/
namespace Verif.Hdf5
open Verif.Np

/-- Positions a selection names on an axis of length `n`. -/
def positions (n : Nat) : AxSel → Option (List Nat)
  | .int i => if i < n then some [i] else none
  | .slice s => s.sel n
  | .list l | .array l => if ∀ i ∈ l, i < n then some l else none
  | .slices l => (l.mapM (fun s : Slc => s.sel n)).map List.flatten

/-- Slices with positive step that start inside the axis and not after they stop. -/
def GoodSlice (n : Nat) (s : Slc) : Prop :=
  0 < s.step.getD 1 ∧ s.start.getD 0 ≤ n ∧ ∀ e, s.stop = some e → s.start.getD 0 ≤ e

/-- Selections on one axis that `_index_dset` documents: integers, slices, non-empty lists of integers or
slices.  (`ndarray`s are excluded when reading.) -/
def GoodSel (n : Nat) : AxSel → Prop
  | .int _ => True
  | .slice s => GoodSlice n s
  | .list l => l ≠ []
  | .slices l => l ≠ [] ∧ ∀ s ∈ l, GoodSlice n s
  | .array l => l.length = n ∧ l ≠ []

/-- The `ix`-th selected cell: each coordinate looked up in that axis's positions. -/
def lookup : List (List Nat) → List Nat → Option (List Nat)
  | [], [] => some []
  | p :: ps, i :: is => do
    let x ← p[i]?
    let r ← lookup ps is
    some (x :: r)
  | _, _ => none

/-- The selections, one per dataset axis, are legal and name the positions `pss`.  When writing, integer
arrays are legal too. -/
inductive Sels (d : Dir) : List Nat → List AxSel → List (List Nat) → Prop
  | nil : Sels d [] [] []
  | cons {n s ps ns ss pss} : (GoodSel n s ∨ (d = .write ∧ ∃ l, s = .array l ∧ l ≠ [])) →
      positions n s = some ps → Sels d ns ss pss → Sels d (n :: ns) (s :: ss) (ps :: pss)

/-- `inds` with the old-shape rule applied: three selections on a four-dimensional dataset leave the second
axis whole. -/
def normSels (shape : List Nat) (inds : List AxSel) : List AxSel :=
  if shape.length = 4 ∧ inds.length = 3 then
    inds.take 1 ++ [.slice {}] ++ inds.drop 1
  else inds

end Verif.Hdf5
