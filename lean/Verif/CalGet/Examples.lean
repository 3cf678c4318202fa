import Mathlib.Algebra.Order.Ring.Rat
import Verif.CalGet.Props

/-! # Cases of solutions by antenna and Jones term -/

namespace Verif.CalGet

def o1 : Obj := { ants := [12, 5, 9], jones := [-5, -6], xo := some "east".toList, isGain := true }

example : argminAbs 9 o1.ants = 2 := by decide +kernel

example : (9 : Int) ∈ o1.ants ∧ (-6 : Int) ∈ o1.jones := by decide +kernel

/-- With `x` to the east, `Jnn` is `Jyy`. -/
example : Says o1.xo (.name "Jnn".toList) (-6) := by unfold Says; decide +kernel

example : (match o1.get (fun a f t j => 1000 * a + 100 * f + 10 * t + j) (.two 9 (.name "Jnn".toList)) none true with
  | .ok (.two v) => decide (v 3 4 = 2341)
  | _ => false) = true := by decide +kernel

example : (match o1.get (fun a f t j => 1000 * a + 100 * f + 10 * t + j) (.int 5) none true with
  | .ok (.three v) => decide (v 3 4 1 = 1341)
  | _ => false) = true := by decide +kernel

example : (7 : Int) ∉ o1.ants ∧ ¬ ∃ m ∈ o1.jones, Says o1.xo (.num (-7)) m := by
  refine ⟨by decide +kernel, ?_⟩
  rintro ⟨m, hm, h⟩
  cases h
  revert hm
  decide +kernel

example : ([((1 : ℚ), (3 : ℚ)), (5, 9)] : List (ℚ × ℚ))[1]? = some (5, 9) ∧ getTimes (some [((1 : ℚ), (3 : ℚ)), (5, 9)]) none = some [2, 7] := by decide +kernel

end Verif.CalGet
