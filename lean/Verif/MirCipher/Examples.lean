import Verif.MirCipher.Props

/-!
# Concrete cases for C231
-/
namespace Verif.MirCipher

example : keyMask (2 ^ 32) (2 ^ 32) [(1, 7), (2, 7), (7, 1)] (2 ^ 16) (2 ^ 32) [(2, 7), (1, 8)] = [false, true, false] := by decide

example : Fits (2 ^ 16) (-3) ∧ Small (2 ^ 16) ∧ Small (2 ^ 32) := ⟨⟨by decide, by decide⟩, ⟨by decide, by decide⟩, ⟨by decide, by decide⟩⟩

example := match_same (n := 2 ^ 32) (m := 2 ^ 32) (this := [(-1, 7), (2, -7)]) (other := [(2, -7)]) ⟨by decide, by decide⟩ ⟨by decide, by decide⟩
  (by unfold Fits; decide) (by unfold Fits; decide) (i := 1) (p := (2, -7)) rfl

example := match_antennas_partial (n := 2 ^ 32) (n' := 2 ^ 16) (m := 2 ^ 32) (this := [(1, 7), (2, -7)]) (other := [(2, -7)]) ⟨by decide, by decide⟩
  ⟨by decide, by decide⟩ ⟨by decide, by decide⟩ (by unfold Fits; decide) (by unfold Fits; decide) (i := 1) (p := (2, -7)) rfl

example := negative_counterexample (n := 2 ^ 16) (n' := 2 ^ 32) (m := 2 ^ 32) (a := -1) (b := 5) ⟨by decide, by decide⟩ ⟨by decide, by decide⟩
  ⟨by decide, by decide⟩ (by decide) (by decide) ⟨by decide, by decide⟩ ⟨by decide, by decide⟩

end Verif.MirCipher
