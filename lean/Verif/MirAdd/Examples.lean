import Verif.MirAdd.Counter

/-! Concrete cases of the theorems about the addition of MIR tables. -/

namespace Verif.MirAdd

def t1 : List (Rec Int) := [⟨9, 10, true⟩, ⟨3, 20, false⟩, ⟨5, 30, true⟩]
def t2 : List (Rec Int) := [⟨5, 30, false⟩, ⟨3, 21, true⟩, ⟨4, 40, false⟩, ⟨9, 11, false⟩]

example := sum_partial (t := t1) (u := t2) (by decide) (by decide) (by decide) none none
example : addTables t1 t2 none none false = .ok [⟨9, 10, true⟩, ⟨5, 30, true⟩, ⟨3, 21, true⟩, ⟨4, 40, false⟩] := by decide +kernel
example : addTables t1 t2 none (some true) false = .ok [⟨5, 30, true⟩, ⟨3, 21, true⟩, ⟨4, 40, false⟩, ⟨9, 11, true⟩] := by decide +kernel
example : addTables t1 t2 none (some false) false = .error .conflict := by decide +kernel
example : InSum none t1 t2 ⟨3, 21, true⟩ := Or.inr (Or.inr ⟨⟨3, 20, false⟩, by decide, ⟨3, 21, true⟩, by decide, rfl, rfl⟩)
-- The same keys, sorted.
example := sum_partial (t := [⟨1, 5, true⟩, ⟨2, 6, false⟩]) (u := [⟨1, 7, false⟩, ⟨2, (8 : Int), true⟩]) (by decide) (by decide) (by decide) (some true) none
example : addTables [⟨2, 5, true⟩, ⟨1, 6, false⟩] [⟨2, 7, false⟩, ⟨1, (8 : Int), true⟩] none none false = .ok [⟨1, 6, true⟩, ⟨2, 7, true⟩] :=
  order_counterexample (by decide) 5 6 7 8
example : addTables [⟨2, (5 : Int), false⟩] [⟨1, 6, true⟩] none none true = .ok [] := (discard_counterexample (by decide) 5 6).1
example : addTables [⟨2, (5 : Int), false⟩] t2 none none true = .error .index := index_counterexample (by decide) ⟨_, List.mem_cons_self, rfl⟩
example : add (some t1) none none none false = .ok (some t1) := (empty_sum (some t1) t2 none none false).1

end Verif.MirAdd
