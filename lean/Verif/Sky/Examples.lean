import Mathlib.Tactic.IntervalCases
import Verif.Sky.Phased

/-!
# Concrete cases that meet the hypotheses
-/

namespace Verif.Sky

open Verif.Coord (V3 atan2)
open Verif.Phase (uEntry)
open Verif.PhaseCat (Entry Val unprojected driftscan)

noncomputable section

/-- A telescope on the equator, for which the sky does nothing. -/
def site0 : Site :=
  { lat := 0, toApp := fun _ p _ => p, cubic := fun _ _ => none, sid := fun _ _ _ r d => (r, d), off := 1 / 10 }

theorem fixed3 (a b : ℝ) : Fixed [0, 0, 1] [a, a, b] := by
  intro i j t x y h1 h2 h3 h4
  have l1 := (List.getElem?_eq_some_iff.1 h1).1
  have l2 := (List.getElem?_eq_some_iff.1 h2).1
  simp only [List.length_cons, List.length_nil] at l1 l2
  interval_cases i <;> interval_cases j <;> simp_all
  all_goals linarith

/-- **C75** for an unprojected source and rows at two times. -/
example : ∃ ra dec, appCoords site0 uEntry [0, 0, 1] [2, 2, 3] = .ok (ra, dec) ∧ ra[1]? = some 2 ∧ ra[2]? = some 3 ∧
    dec[2]? = some 0 := by
  have hplace : ∀ x y, place site0 uEntry x y = .ok (y, 0 + site0.lat) := by
    intro x y
    unfold place
    rw [if_neg (by decide), if_neg (by decide), if_neg (by decide), if_pos (by decide)]
  obtain ⟨⟨ra, dec⟩, h⟩ := app_succeeds (s := site0) (e := uEntry) (time := [0, 0, 1]) (lst := [2, 2, 3]) rfl
    fun x _ y _ => ⟨_, hplace x y⟩
  refine ⟨ra, dec, h, ?_⟩
  obtain ⟨p, hp, h1, -⟩ := app_row_partial h (fixed3 2 3) 1 0 2 rfl rfl
  obtain ⟨q, hq, h2, h3⟩ := app_row_partial h (fixed3 2 3) 2 1 3 rfl rfl
  rw [hplace] at hp hq
  rw [← Except.ok.inj hp] at h1
  rw [← Except.ok.inj hq] at h2 h3
  exact ⟨h1, h2, by simpa [site0] using h3⟩

/-- **C75** for a drift-scan source on the northern horizon: seen from the equator, this is the pole. -/
example : ∃ p, place site0 { uEntry with type := driftscan, lon := some (.scalar 0), lat := some (.scalar 0) } 5 1 = .ok p ∧
    dir (p.1 - 1, p.2) = ⟨0, 0, 1⟩ := by
  obtain ⟨p, h1, h2, -⟩ := driftscan_fixed (s := site0)
    (e := { uEntry with type := driftscan, lon := some (.scalar 0), lat := some (.scalar 0) }) (az := 0) (el := 0)
    (t := 5) (l := 1) rfl (by simp [vals]) (by simp [vals])
  refine ⟨p, h1, ?_⟩
  rw [h2]
  simp [hor, site0]

/-- **C76** for three rows at two times. -/
example : ∃ pa, framePosAngle (fun _ r d => (r, d)) true (1 / 10) [0, 0, 1] [1, 1, 2] [0, 0, 1 / 5] = .ok pa ∧
    ∃ θ, pa[2]? = some (-θ) ∧ Bearing (2, 1 / 5 - 1 / 10) (2, 1 / 5 + 1 / 10) θ := by
  have hp := Real.two_le_pi
  obtain ⟨pa, h1, -, h3⟩ := frame_angle_partial (sid := fun _ r d => (r, d)) (off := 1 / 10) (time := [0, 0, 1])
    (ra := [1, 1, 2]) (dec := [0, 0, 1 / 5]) (by norm_num) rfl rfl (by
      intro d hd
      simp only [List.mem_cons, List.not_mem_nil, or_false] at hd
      rcases hd with rfl | rfl | rfl <;> linarith) (by
      intro d hd
      simp only [List.mem_cons, List.not_mem_nil, or_false] at hd
      rcases hd with rfl | rfl | rfl <;> linarith) (fixed3 1 2) (fixed3 0 (1 / 5))
  refine ⟨pa, h1, h3 2 1 2 (1 / 5) rfl rfl rfl ?_⟩
  rintro ⟨-, h⟩
  have : Real.sin (1 / 5) = 0 := by
    have e : (1 / 5 : ℝ) = (1 / 5 + 1 / 10) - (1 / 5 - 1 / 10) := by norm_num
    rw [e, Real.sin_sub, ← h]
    unfold dot north dir
    have := Real.sin_sq_add_cos_sq 2
    simp only
    linear_combination (Real.sin (1 / 5 - 1 / 10) * Real.cos (1 / 5 + 1 / 10)) * this
  have h0 := Real.sin_pos_of_pos_of_lt_pi (x := 1 / 5) (by norm_num) (by linarith)
  linarith

/-- **C76**: near the south pole there is no answer. -/
example : framePosAngle (fun _ r d => (r, d)) true (1 / 10) [0] [1] [-(Real.pi / 2)] = .error .assign :=
  frame_south_counterexample (d := -(Real.pi / 2)) (by norm_num) rfl rfl
    (by
      intro d hd
      have := Real.pi_pos
      simp only [List.mem_cons, List.not_mem_nil, or_false] at hd
      rw [hd]
      linarith) (by simp) (by norm_num)

/-- **C77** for two points. -/
example : interp (fun _ _ => none) [(2, 3), (0, 1)] 1 = some 2 := by
  obtain ⟨v, hv⟩ := interp_total (cubic := fun _ _ => none) (pts := [(2, 3), (0, 1)]) (p := (0, 1)) (q := (2, 3))
    (t := 1) (by simp) (by simp) (by simp) (by norm_num) (by norm_num)
  rw [hv, interp_linear (a := 1) (b := 1) (by simp) (by simp) (by
    intro p hp
    simp only [List.mem_cons, List.not_mem_nil, or_false] at hp
    rcases hp with rfl | rfl <;> norm_num) (by simp) hv]
  norm_num

/-- **C78** for a vector that is not of length one. -/
example : polar2 (cart3 ⟨0, 0, 2⟩).1 (cart3 ⟨0, 0, 2⟩).2 = ⟨0, 0, 1⟩ := by
  have hl : len ⟨0, 0, 2⟩ = 2 := by
    unfold len
    rw [show (0 : ℝ) ^ 2 + 0 ^ 2 + 2 ^ 2 = 2 ^ 2 by norm_num]
    exact Real.sqrt_sq (by norm_num)
  rw [cart3_polar2 _ (by rw [hl]; norm_num), hl]
  norm_num

/-- **C78** for a position on the equator. -/
example : (cart3 (polar2 7 0)).1 = mod2pi 7 := by
  have := Real.pi_pos
  exact (polar2_cart3 (by linarith) (by linarith)).2

end

end Verif.Sky
