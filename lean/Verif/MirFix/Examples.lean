import Verif.MirFix.Props

/-! # Repaired positions of the integrations of MIR files: a case that meets the hypotheses -/

namespace Verif.MirFix

/-- Entries: the number in the file and the position. -/
def old : List (Nat × (Nat × Nat)) := [(11, (1, 0)), (12, (2, 100)), (13, (3, 200))]
def found : List (Nat × (Nat × Nat)) := [(1, (1, 0)), (3, (3, 150)), (4, (4, 300))]

example : fix Prod.fst old found = [(11, (1, 0)), (13, (3, 150))] := by decide
example (n : Nat) : (fix Prod.fst old found).lookup n = (old.lookup n).bind fun e => found.lookup e.1 :=
  fixed Prod.fst (by decide) (by decide) n

end Verif.MirFix
