import Verif.Slices.Model

/-!
What indexing an axis of length `n` with an object means (numpy/h5py semantics), independent of the
conversion code.
-/
namespace Verif.Slices
open Verif.Np

/-- Positions picked, in order, from an axis of length `n` by an index object; `none` is an exception. -/
def picks (n : Nat) : Inds → Option (List Nat)
  | .slice s => s.sel n
  | .int i => if i < n then some [i] else none
  | .mask m => if m.length = n then some (whereIdx (fun b => b) m) else none
  | .list l => if ∀ i ∈ l, i < n then some l else none

/-- Positions picked by one returned entry. -/
def Entry.picks (n : Nat) : Entry → Option (List Nat)
  | .slice s => s.sel n
  | .inds i => Verif.Slices.picks n i

/-- Positions picked by a returned list of entries, applied in order and concatenated. -/
def allPicks (n : Nat) (es : List Entry) : Option (List Nat) :=
  (es.mapM (Entry.picks n)).map List.flatten

/-- Positions picked by the result of `slicify`.  Indexing with `None` inserts an axis instead of
selecting, so it has no positions. -/
def SlicifyOut.picks (n : Nat) : SlicifyOut → Option (List Nat)
  | .none => Option.none
  | .slice s => s.sel n
  | .inds l => Verif.Slices.picks n (.list l)

/-- The requests for which the conversion is meant: any slice or integer; masks and lists that are
non-empty, lists strictly increasing. -/
def WellFormed : Inds → Prop
  | .slice _ => True
  | .int _ => True
  | .mask m => true ∈ m
  | .list l => l ≠ [] ∧ l.Pairwise (· < ·)

end Verif.Slices
