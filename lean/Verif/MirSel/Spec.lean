import Verif.MirSel.Model

/-! What a selection from MIR data is supposed to keep. -/

namespace Verif.MirSel
open Verif.Pol (Str)

variable {S : Type} [LinearOrder S]

/-- The comparison holds for a number. -/
def Compares (c : Comp) (vals : List S) (x : S) : Prop :=
  match c with
  | .eq => x ∈ vals
  | .ne => x ∉ vals
  | .lt => ∃ v, vals = [v] ∧ x < v
  | .le => ∃ v, vals = [v] ∧ x ≤ v
  | .gt => ∃ v, vals = [v] ∧ v < x
  | .ge => ∃ v, vals = [v] ∧ v ≤ x
  | .between => ∃ a b l, vals = a :: b :: l ∧ a ≤ x ∧ x ≤ b
  | .outside => ∃ a b l, vals = a :: b :: l ∧ (x < a ∨ b < x)
  | .bad => False

/-- The field that a name in a condition is about. -/
def fieldOf (n : Name) : Name := (codeField (longName n)).getD (longName n)

/-- A row meets a condition. If the name is that of a code, the number in the row is that of a text that meets it. -/
def Meets (codes : Codes S) (c : Cond S) (row : Row S) : Prop :=
  ∃ x ∈ row (fieldOf c.field), match codeField (longName c.field) with
    | none => Compares c.comp c.vals x
    | some _ => ∃ txt, (longName c.field, txt, x) ∈ codes ∧ (c.comp = .eq ∧ txt ∈ c.texts ∨ c.comp = .ne ∧ txt ∉ c.texts)

/-- A row of a table meets all conditions that are about a field of this table. -/
def MeetsAll (codes : Codes S) (q : List (Cond S)) (t : Tab S) (row : Row S) : Prop :=
  ∀ c ∈ q, t.has (fieldOf c.field) = true → Meets codes c row

/-- With "or", a row of a table meets one of the conditions that are about a field of this table, if there is any. -/
def MeetsOne (codes : Codes S) (q : List (Cond S)) (t : Tab S) (row : Row S) : Prop :=
  (∃ c ∈ q, t.has (fieldOf c.field) = true) → ∃ c ∈ q, t.has (fieldOf c.field) = true ∧ Meets codes c row

/-- The two ways to combine conditions on one table. -/
def MeetsBy (andArgs : Bool) (codes : Codes S) (q : List (Cond S)) (t : Tab S) (row : Row S) : Prop :=
  if andArgs then MeetsAll codes q t row else MeetsOne codes q t row

/-- The comparison is known and has as many values as it needs. -/
def Proper (c : Comp) (vals : List S) : Prop :=
  match c with
  | .eq => True
  | .ne => True
  | .between => 2 ≤ vals.length
  | .outside => 2 ≤ vals.length
  | .bad => False
  | _ => vals.length = 1

/-- A condition that can be tested: codes are equal or not, and others are proper if they are about some table. -/
def Testable (s : St S) (c : Cond S) : Prop :=
  match codeField (longName c.field) with
  | some _ => c.comp = .eq ∨ c.comp = .ne
  | none => (s.inn.has (longName c.field) = true ∨ s.bl.has (longName c.field) = true ∨ s.sp.has (longName c.field) = true ∨
      s.eng.has (longName c.field) = true ∨ s.we.has (longName c.field) = true ∨
      (s.auto = true ∧ s.ac.has (longName c.field) = true)) → Proper c.comp c.vals

/-- The records that belong to a spectrum `r`: those of its baseline, its integration, the weather and both antennas,
each of them one for which the predicate of its table holds. -/
def Whole (s : St S) (bl inn we eng : Row S → Prop) (r : Row S) : Prop :=
  ∃ b i w e₁ e₂, bl b ∧ inn i ∧ we w ∧ eng e₁ ∧ eng e₂ ∧
    b .blhid = r .blhid ∧ i .inhid = b .inhid ∧ w .ints = i .ints ∧
    e₁ .antenna = b .iant1 ∧ e₁ .inhid = b .inhid ∧ e₂ .antenna = b .iant2 ∧ e₂ .inhid = b .inhid ∧
    (s.cross = true → ∃ v ∈ b .inhid, v ∈ s.fileInts)

/-- There is weather for every integration. -/
def Weather (s : St S) : Prop := ∀ x ∈ s.inn.rows, ∃ y ∈ s.we.rows, y.1 .ints = x.1 .ints

open Classical in
/-- The same rows in the new table, of which exactly those stay set that meet `P`. -/
def Cuts (t t' : Tab S) (P : Row S → Prop) : Prop := t'.rows = t.rows.map (fun x => (x.1, x.2 && decide (P x.1)))

end Verif.MirSel
