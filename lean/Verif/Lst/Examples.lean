import Mathlib.Data.Rat.Defs
import Mathlib.Data.Rat.Floor
import Mathlib.Algebra.Order.Ring.Rat
import Verif.Lst.Props

/-! Concrete cases of the theorems about sidereal times. -/

namespace Verif.Lst

/-- A sky that turns by a tenth of the time; the pole drifts a little. -/
def sky : Sky ℚ where
  gast t := t * (1 / 10)
  sp t := t * (1 / 100)
  localTime m l t := if m then l + t else l - t
  gastH t := (t * (1 / 10) + t * (1 / 100)) * 12 / 3

def place : Place ℚ := .degrees 30 "itrs".toList

-- Times that repeat, not in order, more than a turn (of 6).
example : ∃ l, getLst 3 sky place (some .erfa) [50, 10, 50, 100] = .ok l ∧ l.length = 4 ∧
    ∀ (i : Nat) t x, [50, 10, 50, 100][i]? = some t → l[i]? = some x → InTurn (2 * 3) x (sky.gast t + sky.sp t + place.rad 3) :=
  erfa_times (by decide +kernel) sky place rfl _

example : (getLst 3 sky place (some .erfa) [50, 10, 50, 100]).toOption = some [0, 8 / 5, 0, 11 / 2] := by decide +kernel

example : getLst 3 sky (.moon (1 / 2)) (some .astropy) [50, 10] = .ok [101 / 2, 21 / 2] := by
  rw [astropy_times]
  exact congrArg Except.ok (by decide +kernel)

-- Hours and radians.
example : getLst 3 sky (.degrees 30 "itrs".toList) (some .novas) [50, 10, 50] = getLst 3 sky (.degrees 30 "itrs".toList) (some .erfa) [50, 10, 50] := by
  refine novas_agrees (by decide +kernel) sky 30 _ (by decide +kernel) _ (fun t _ => ?_)
  show (t * (1 / 10) + t * (1 / 100)) * 12 / 3 * 3 / 12 = t * (1 / 10) + t * (1 / 100)
  ring

example : getLst 3 sky (.earth 1) (some .novas) [50] = .error .noLongitude := location_counterexample 3 sky 1 _
example : library (.earth (1 : ℚ)) none = .astropy := (default_counterexample 1).1
example : library (.degrees (1 : ℚ) "mcmf".toList) none = .astropy := moon_library (by decide)

example : ∃ l, getLst 3 sky place none [50, 10] = .ok l ∧ (warns 3 sky place 0 (1 / 10) [50, 10] [0, 8 / 5] = .ok false ↔ Close 0 (1 / 10) [0, 8 / 5] l) :=
  warns_iff 3 sky place 0 (1 / 10) _ _

-- A hundredth before the end of the turn is a hundredth away from the beginning.
example : warns 3 sky place 0 (1 / 10) [50] [2 * 3 - 1 / 100] = .ok true ∧ ∃ n : ℤ, |2 * 3 - 1 / 100 - (0 + 2 * 3 * (n : ℚ))| = |1 / 100| :=
  wrap_counterexample sky place 0 (1 / 10) 50 (1 / 100) (by
    have h : getLst 3 sky place none [50] = .ok (perTime (fun t => mod (sky.gast t + sky.sp t + place.rad 3) (2 * 3)) [50]) := rfl
    rw [h]
    exact congrArg Except.ok (by decide +kernel)) (by decide +kernel) (by decide +kernel)

end Verif.Lst
