import Verif.EqCoeff.Props
import Mathlib.Algebra.Field.Rat

/-! Three antennas in the order 2, 0, 1 of the telescope. -/

namespace Verif.EqCoeff
open Verif.AntPair (Numbered LaidOut)

/-- Coefficients 2, 3, 5 for antennas 2, 0, 1 in the first channel, one more in the next. -/
def exObj (conv : Option Conv) : Obj ℚ :=
  { pairs := AntPair.demo, tel := [2, 0, 1], coeffs := some (fun i f => [2, 3, 5].getD i 1 + f), conv := conv,
    data := fun r _ _ => 60 + r }

/-- Data of two channels. -/
def view (x : Obj ℚ × Option Err) : List (List ℚ) × Bool :=
  ((List.range 6).map (fun r => [x.1.data r 0 0, x.1.data r 1 0]), x.2.isNone)

example : view (remove (exObj (some .multiply))) =
    ([[60 * 15, 60 * 24], [61 * 6, 61 * 12], [62 * 6, 62 * 12], [63 * 15, 63 * 24], [64 * 6, 64 * 12], [65 * 6, 65 * 12]],
      true) := by decide +kernel

example : view (remove (exObj (some .divide))) =
    ([[60 / 15, 60 / 24], [61 / 6, 61 / 12], [62 / 6, 62 / 12], [63 / 15, 63 / 24], [64 / 6, 64 / 12], [65 / 6, 65 / 12]],
      true) := by decide +kernel

theorem ex_ants (conv : Option Conv) : ∀ r a b, RowOf (exObj conv).pairs r a b → a ∈ (exObj conv).tel ∧ b ∈ (exObj conv).tel := by
  intro r a b h
  have h1 : a ∈ [0, 2, 0, 0, 2, 0] := List.mem_of_getElem? h.1
  have h2 : b ∈ [1, 0, 2, 1, 0, 2] := List.mem_of_getElem? h.2
  have e1 : ∀ a ∈ [0, 2, 0, 0, 2, 0], a ∈ [2, 0, 1] := by decide
  have e2 : ∀ b ∈ [1, 0, 2, 1, 0, 2], b ∈ [2, 0, 1] := by decide
  exact ⟨e1 a h1, e2 b h2⟩

example : ∃ d, remove (exObj (some .multiply)) = ({ exObj (some .multiply) with data := d }, none) ∧
    d 1 0 0 = 61 * 6 := by
  obtain ⟨d, h1, h2⟩ := removed (exObj (some .multiply)) AntPair.demo_numbered AntPair.demo_laidOut (ex_ants _) rfl rfl
    (Or.inl rfl)
  refine ⟨d, h1, ?_⟩
  have hk : ∀ k < 1, (exObj (some .multiply)).tel[k]? ≠ some 0 := by decide +kernel
  have := h2 1 2 0 0 1 ⟨rfl, rfl⟩ ⟨rfl, by intro k hk; omega⟩ ⟨rfl, hk⟩ 0 0
  simp only [Becomes, exObj] at this
  rw [this]
  norm_num

example : (remove (exObj none)).2 = some .noConv ∧ (remove (exObj (some .other))).2 = some .unknownConv := by
  decide +kernel

/-- The object does not show that they are removed: a second call removes them again. -/
theorem again_counterexample :
    view (remove (remove (exObj (some .multiply))).1) =
      ([[60 * 225, 60 * 576], [61 * 36, 61 * 144], [62 * 36, 62 * 144], [63 * 225, 63 * 576], [64 * 36, 64 * 144],
        [65 * 36, 65 * 144]], true) := by decide +kernel

end Verif.EqCoeff
