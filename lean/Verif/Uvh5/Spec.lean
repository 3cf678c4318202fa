import Verif.Uvh5.Model

/-!
What a part of a file is: for each axis the positions that are asked for, or all of them.
-/

namespace Verif.Uvh5

open Verif.Hdf5

/-- The positions that are asked for on an axis of length `n`. -/
def wanted (n : Nat) : Option (List Nat) → List Nat
  | some l => l
  | none => List.range n

/-- A selection of some axis: at least one position, increasing, all of them on the axis. -/
def ValidSel (n : Nat) (o : Option (List Nat)) : Prop :=
  ∀ l, o = some l → l ≠ [] ∧ l.Pairwise (· < ·) ∧ ∀ i ∈ l, i < n

/-- A selection of all axes. -/
def ValidReq (sh : Cell) (r : Req) : Prop :=
  ValidSel sh.1 r.blt ∧ ValidSel sh.2.1 r.freq ∧ ValidSel sh.2.2 r.pol

/-- Cell `s` of the part is cell `t` of the whole. -/
def InPart (sh : Cell) (r : Req) (s t : Cell) : Prop :=
  (wanted sh.1 r.blt)[s.1]? = some t.1 ∧ (wanted sh.2.1 r.freq)[s.2.1]? = some t.2.1 ∧
    (wanted sh.2.2 r.pol)[s.2.2]? = some t.2.2

/-- The shape of the part. -/
def partShape (sh : Cell) (r : Req) : Cell :=
  ((wanted sh.1 r.blt).length, (wanted sh.2.1 r.freq).length, (wanted sh.2.2 r.pol).length)

/-- A position in a dataset, with the former window axis (of length one) or without. -/
def pos (old : Bool) (w : Nat) (c : Cell) : List Nat := if old then [c.1, w, c.2.1, c.2.2] else [c.1, c.2.1, c.2.2]

end Verif.Uvh5
