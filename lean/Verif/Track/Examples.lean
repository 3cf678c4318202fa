import Verif.Track.Props
import Mathlib.Algebra.Order.Group.Int

/-! Concrete cases. -/

namespace Verif.Track

/-- A sky in which epochs shift positions, with whole numbers. -/
def sky : Sky Int Int Int Int Int Int where
  app e c t := 100 * c + t + e.getD 0
  pa e t a := a - t + e.getD 0
  uvw p t a q := ⟨p.1 - p.2 + t, a, q⟩

example : pairs 3 = [(1, 2), (1, 3), (2, 3)] := by decide +kernel
example := track_partial sky true (some 50) 7 [3, 1, 3] (n := 3) (by decide)
example : (track sky true (some 50) [7] [3, 1] 2).map (·.map (·.app)) = some [703, 701] := by decide +kernel
example := rows_partial sky false none (cs := [4, 5, 6]) (times := [1, 2, 9]) rfl (by decide) (ants := [(1, 2), (1, 2), (1, 3)]) rfl
example := rows_single sky false none 4 (times := [9, 2, 9]) (ants := [(1, 2), (1, 2), (1, 3)]) rfl
example : appCoords (sky.app none) [4, 5, 6] [1, 2, 9] = some [401, 502, 609] := app_sorted_partial _ rfl (by decide)
/-- The positions of two rows are exchanged. -/
example : appCoords (sky.app none) [4, 5, 6] [1, 9, 2] = some [401, 609, 502] := by decide +kernel
example := order_counterexample (f := sky.app none) (fun t c c' h => by simp only [sky] at h; omega)
  (cs := [4, 5, 6]) (times := [1, 9, 2]) rfl (by decide) (by decide) (by decide)
example := times_counterexample sky false none (cs := [4, 5]) (times := [1, 2]) rfl (t := 1) (t' := 2) (by simp)
  (by simp) (by decide) (n := 3) (by decide)
example : (rowsOf sky false none [4, 5] [1, 1] [(1, 2), (1, 3)]).map (·.map (·.app)) = some [401, 401] := by decide +kernel
example := one_time_counterexample sky false none 4 [5] 1 [(1, 2), (1, 3)] (by simp)
example := epoch_counterexample sky false (some 50) 7 (times := [3, 1]) (n := 2) (by decide) (fun t _ => by simp [sky])
example := force_positive sky none (1, 2) 0 3
example : (mkRow sky true none (1, 2) 0 3).uvw = ⟨1, -3, -3⟩ := by decide +kernel
example := row_fields sky false (some 2) (1, 2) 0 3

end Verif.Track
