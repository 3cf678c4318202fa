import Mathlib.Tactic.Linarith
import Mathlib.Tactic.LinearCombination
import Mathlib.Tactic.FieldSimp
import Mathlib.Tactic.Positivity
import Verif.Sky.Model
import Verif.Sky.Spec
import Verif.Coord.Props

/-!
# Polar coordinates, rotations and position angles
-/

namespace Verif.Sky

open Verif.Coord (V3 atan2)

theorem two_pi_pos : (0 : ℝ) < 2 * Real.pi := by have := Real.pi_pos; linarith

theorem mod2pi_range (x : ℝ) : 0 ≤ mod2pi x ∧ mod2pi x < 2 * Real.pi := by
  have h := two_pi_pos
  have h1 := Int.floor_le (x / (2 * Real.pi))
  have h2 := Int.lt_floor_add_one (x / (2 * Real.pi))
  rw [le_div_iff₀ h] at h1
  rw [div_lt_iff₀ h] at h2
  unfold mod2pi
  constructor <;> nlinarith

/-- The angle only changes by full turns. -/
theorem mod2pi_turns (x : ℝ) : ∃ n : ℤ, mod2pi x = x + n * (2 * Real.pi) := by
  refine ⟨-⌊x / (2 * Real.pi)⌋, ?_⟩
  unfold mod2pi
  push_cast
  ring

theorem cos_mod2pi (x : ℝ) : Real.cos (mod2pi x) = Real.cos x := by
  obtain ⟨n, h⟩ := mod2pi_turns x
  rw [h, Real.cos_add_int_mul_two_pi]

theorem sin_mod2pi (x : ℝ) : Real.sin (mod2pi x) = Real.sin x := by
  obtain ⟨n, h⟩ := mod2pi_turns x
  rw [h, Real.sin_add_int_mul_two_pi]

theorem mod2pi_self {x : ℝ} (h0 : 0 ≤ x) (h1 : x < 2 * Real.pi) : mod2pi x = x := by
  have : ⌊x / (2 * Real.pi)⌋ = 0 := by
    rw [Int.floor_eq_zero_iff]
    exact ⟨div_nonneg h0 two_pi_pos.le, (div_lt_one two_pi_pos).2 h1⟩
  unfold mod2pi
  rw [this]
  simp

/-- Two angles in the same turn that differ by full turns are equal. -/
theorem mod2pi_eq {x y : ℝ} (hy0 : 0 ≤ y) (hy1 : y < 2 * Real.pi) {n : ℤ} (h : x = y + n * (2 * Real.pi)) :
    mod2pi x = y := by
  have hp := two_pi_pos
  have : x / (2 * Real.pi) = y / (2 * Real.pi) + n := by
    rw [h]; field_simp
  have h2 : ⌊x / (2 * Real.pi)⌋ = n := by
    rw [this, Int.floor_add_intCast]
    have : ⌊y / (2 * Real.pi)⌋ = 0 := by
      rw [Int.floor_eq_zero_iff]
      exact ⟨div_nonneg hy0 hp.le, (div_lt_one hp).2 hy1⟩
    omega
  unfold mod2pi
  rw [h2, h]
  ring

/-- Half a turn never gives the same angle. -/
theorem mod2pi_half (x : ℝ) : mod2pi (x + Real.pi) ≠ x := by
  intro h
  have h1 := cos_mod2pi (x + Real.pi)
  have h2 := sin_mod2pi (x + Real.pi)
  rw [h, Real.cos_add_pi] at h1
  rw [h, Real.sin_add_pi] at h2
  have := Real.sin_sq_add_cos_sq x
  nlinarith

/-! ## `atan2` -/

/-- `atan2(y, x)` is the angle of the point. -/
theorem atan2_polar {x y : ℝ} (h : ¬ (y = 0 ∧ x = 0)) :
    -Real.pi < atan2 y x ∧ atan2 y x ≤ Real.pi ∧
    y = Real.sqrt (x ^ 2 + y ^ 2) * Real.sin (atan2 y x) ∧
    x = Real.sqrt (x ^ 2 + y ^ 2) * Real.cos (atan2 y x) ∧ 0 < Real.sqrt (x ^ 2 + y ^ 2) := by
  have hz : (⟨x, y⟩ : ℂ) ≠ 0 := by
    intro h0
    have := Complex.ext_iff.1 h0
    exact h ⟨this.2, this.1⟩
  have hn : ‖(⟨x, y⟩ : ℂ)‖ = Real.sqrt (x ^ 2 + y ^ 2) := by
    rw [Complex.norm_def, Complex.normSq_apply]
    congr 1
    ring
  have hp : 0 < ‖(⟨x, y⟩ : ℂ)‖ := norm_pos_iff.2 hz
  have hc := Complex.cos_arg hz
  have hs := Complex.sin_arg (⟨x, y⟩ : ℂ)
  rw [hn] at hc hs hp
  refine ⟨Complex.neg_pi_lt_arg _, Complex.arg_le_pi _, ?_, ?_, hp⟩
  · unfold atan2
    rw [hs]
    field_simp
  · unfold atan2
    rw [hc]
    field_simp

/-- The angle of a point given in polar coordinates. -/
theorem atan2_of {r θ : ℝ} (hr : 0 < r) (h0 : -Real.pi < θ) (h1 : θ ≤ Real.pi) :
    atan2 (r * Real.sin θ) (r * Real.cos θ) = θ := by
  unfold atan2
  have := Complex.arg_mul_cos_add_sin_mul_I hr ⟨h0, h1⟩
  conv_rhs => rw [← this]
  congr 1
  apply Complex.ext <;> simp [Complex.cos_ofReal_re, Complex.sin_ofReal_re, Complex.cos_ofReal_im, Complex.sin_ofReal_im]

theorem atan2_zero : atan2 0 0 = 0 := by
  unfold atan2
  have : (⟨0, 0⟩ : ℂ) = 0 := rfl
  rw [this, Complex.arg_zero]

theorem atan2_pos_axis {x : ℝ} (hx : 0 ≤ x) : atan2 0 x = 0 := by
  unfold atan2
  have : (⟨x, 0⟩ : ℂ) = (x : ℂ) := by apply Complex.ext <;> simp
  rw [this, Complex.arg_ofReal_of_nonneg hx]

/-! ## Polar and Cartesian coordinates -/

/-- **C78.** `polar2_to_cart3` returns the direction of the position, of length one. -/
theorem polar2_dir (lon lat : ℝ) : polar2 lon lat = dir (lon, lat) ∧ len (polar2 lon lat) = 1 := by
  constructor
  · unfold polar2 dir
    simp only [V3.mk.injEq]
    exact ⟨mul_comm _ _, mul_comm _ _, trivial⟩
  · unfold len polar2
    rw [Real.sqrt_eq_one]
    have h1 := Real.sin_sq_add_cos_sq lon
    have h2 := Real.sin_sq_add_cos_sq lat
    linear_combination h2 + Real.cos lat ^ 2 * h1

theorem sq_norm_xy (v : V3) : 0 ≤ v.x ^ 2 + v.y ^ 2 := by positivity

/-- **C78.** `cart3_to_polar2` followed by `polar2_to_cart3` returns the direction of the vector, for every
vector other than zero. -/
theorem cart3_polar2 (v : V3) (hv : len v ≠ 0) :
    polar2 (cart3 v).1 (cart3 v).2 = ⟨v.x / len v, v.y / len v, v.z / len v⟩ := by
  have hlen : len v = Real.sqrt (Real.sqrt (v.x ^ 2 + v.y ^ 2) ^ 2 + v.z ^ 2) := by
    unfold len
    rw [Real.sq_sqrt (sq_norm_xy v)]
  have hz : ¬ (v.z = 0 ∧ Real.sqrt (v.x ^ 2 + v.y ^ 2) = 0) := by
    rintro ⟨h1, h2⟩
    apply hv
    rw [hlen, h1, h2]
    simp
  obtain ⟨-, -, a3, a4, a5⟩ := atan2_polar hz
  rw [← hlen] at a3 a4 a5
  have e2 : Real.cos (cart3 v).2 = Real.sqrt (v.x ^ 2 + v.y ^ 2) / len v := by
    rw [eq_div_iff hv]
    unfold cart3
    linarith
  have e3 : Real.sin (cart3 v).2 = v.z / len v := by
    rw [eq_div_iff hv]
    unfold cart3
    linarith
  unfold polar2
  rw [e2, e3]
  unfold cart3
  simp only [cos_mod2pi, sin_mod2pi, V3.mk.injEq]
  refine ⟨?_, ?_, trivial⟩
  · by_cases hxy : v.y = 0 ∧ v.x = 0
    · rw [hxy.1, hxy.2]; simp
    · obtain ⟨-, -, -, b4, -⟩ := atan2_polar hxy
      conv_rhs => rw [b4]
      ring
  · by_cases hxy : v.y = 0 ∧ v.x = 0
    · rw [hxy.1, hxy.2]; simp
    · obtain ⟨-, -, b3, -, -⟩ := atan2_polar hxy
      conv_rhs => rw [b3]
      ring

/-- The ranges of what `cart3_to_polar2` returns. -/
theorem cart3_range (v : V3) : 0 ≤ (cart3 v).1 ∧ (cart3 v).1 < 2 * Real.pi ∧
    -(Real.pi / 2) ≤ (cart3 v).2 ∧ (cart3 v).2 ≤ Real.pi / 2 := by
  refine ⟨(mod2pi_range _).1, (mod2pi_range _).2, ?_⟩
  have : |(cart3 v).2| ≤ Real.pi / 2 := by
    unfold cart3 atan2
    rw [Complex.abs_arg_le_pi_div_two_iff]
    exact Real.sqrt_nonneg _
  exact abs_le.1 this

/-- **C78.** `polar2_to_cart3` followed by `cart3_to_polar2` returns the position: the latitude as it was, the
longitude up to full turns. -/
theorem polar2_cart3 {lon lat : ℝ} (h0 : -(Real.pi / 2) < lat) (h1 : lat < Real.pi / 2) :
    (cart3 (polar2 lon lat)).2 = lat ∧ (cart3 (polar2 lon lat)).1 = mod2pi lon := by
  have hp := Real.pi_pos
  have hc : 0 < Real.cos lat := Real.cos_pos_of_mem_Ioo ⟨h0, h1⟩
  have hxy : Real.sqrt ((polar2 lon lat).x ^ 2 + (polar2 lon lat).y ^ 2) = Real.cos lat := by
    rw [show (polar2 lon lat).x ^ 2 + (polar2 lon lat).y ^ 2 = Real.cos lat ^ 2 by
      unfold polar2
      have := Real.sin_sq_add_cos_sq lon
      linear_combination Real.cos lat ^ 2 * this]
    exact Real.sqrt_sq hc.le
  constructor
  · unfold cart3
    simp only
    rw [hxy]
    have := atan2_of (r := 1) (θ := lat) one_pos (by linarith) (by linarith)
    rw [one_mul, one_mul] at this
    exact this
  · unfold cart3
    simp only
    have hne : ¬ ((polar2 lon lat).y = 0 ∧ (polar2 lon lat).x = 0) := by
      rintro ⟨h2, h3⟩
      rw [h2, h3] at hxy
      simp at hxy
      linarith
    obtain ⟨a1, a2, a3, a4, -⟩ := atan2_polar hne
    rw [hxy] at a3 a4
    have b3 : Real.sin (atan2 (polar2 lon lat).y (polar2 lon lat).x) = Real.sin lon := by
      apply mul_left_cancel₀ hc.ne'
      rw [← a3]
      unfold polar2
      ring
    have b4 : Real.cos (atan2 (polar2 lon lat).y (polar2 lon lat).x) = Real.cos lon := by
      apply mul_left_cancel₀ hc.ne'
      rw [← a4]
      unfold polar2
      ring
    have := (Real.Angle.cos_sin_inj (θ := atan2 (polar2 lon lat).y (polar2 lon lat).x) (ψ := lon) b4 b3)
    rw [Real.Angle.angle_eq_iff_two_pi_dvd_sub] at this
    obtain ⟨n, hn⟩ := this
    obtain ⟨k, hk⟩ := mod2pi_turns lon
    refine mod2pi_eq (mod2pi_range lon).1 (mod2pi_range lon).2 (n := n - k) ?_
    push_cast
    linarith

/-! ## The old calculation of baseline coordinates -/

/-- **C78.** `undo_old_uvw_calc` undoes `old_uvw_calc`, and the other way round. -/
theorem undo_old (ra dec : ℝ) (v : V3) :
    undoOldUvw ra dec (oldUvw ra dec v) = v ∧ oldUvw ra dec (undoOldUvw ra dec v) = v := by
  have h1 := Real.sin_sq_add_cos_sq ra
  have h2 := Real.sin_sq_add_cos_sq dec
  unfold undoOldUvw oldUvw
  generalize Real.sin ra = s at *
  generalize Real.cos ra = c at *
  generalize Real.sin dec = S at *
  generalize Real.cos dec = C at *
  obtain ⟨x, y, z⟩ := v
  constructor
  · simp only [V3.mk.injEq]
    refine ⟨?_, ?_, ?_⟩
    · linear_combination x * h1 + (c ^ 2 * x + c * s * y) * h2
    · linear_combination y * h1 + (c * s * x + s ^ 2 * y) * h2
    · linear_combination z * h2
  · simp only [V3.mk.injEq]
    refine ⟨?_, ?_, ?_⟩
    · linear_combination x * h1
    · linear_combination (S ^ 2 * y - S * C * z) * h1 + y * h2
    · linear_combination (C ^ 2 * z - S * C * y) * h1 + z * h2

/-- **C78.** `old_uvw_calc` returns the components of the baseline along the directions east and north at the
source and toward the source. -/
theorem oldUvw_components (ra dec : ℝ) (v : V3) :
    oldUvw ra dec v = ⟨dot (east (ra, dec)) v, dot (north (ra, dec)) v, dot (dir (ra, dec)) v⟩ := by
  unfold oldUvw dot east north dir
  simp only [V3.mk.injEq]
  refine ⟨by ring, by ring, trivial⟩

/-! ## Position angles -/

/-- `erfa.pas` is the position angle. -/
theorem pas_bearing {a b : ℝ × ℝ} (h : Apart a b) : Bearing a b (pas a b) := by
  have hy : Real.sin (b.1 - a.1) * Real.cos b.2 = dot (east a) (dir b) := by
    unfold dot east dir
    rw [Real.sin_sub]
    simp only
    ring
  have hx : Real.sin b.2 * Real.cos a.2 - Real.cos b.2 * Real.sin a.2 * Real.cos (b.1 - a.1)
      = dot (north a) (dir b) := by
    unfold dot north dir
    rw [Real.cos_sub]
    simp only
    ring
  have hp : pas a b = atan2 (dot (east a) (dir b)) (dot (north a) (dir b)) := by
    unfold pas
    rw [hy, hx]
  obtain ⟨h1, h2, h3, h4, h5⟩ := atan2_polar h
  rw [hp]
  exact ⟨h1, h2, _, h5, h3, h4⟩

/-- Seen from a point, what lies due north has position angle zero. -/
theorem pas_north {r d d' : ℝ} (h0 : d ≤ d') (h1 : d' ≤ d + Real.pi) : pas (r, d) (r, d') = 0 := by
  unfold pas
  simp only [sub_self, Real.sin_zero, Real.cos_zero, zero_mul, mul_one]
  apply atan2_pos_axis
  rw [← Real.sin_sub]
  exact Real.sin_nonneg_of_nonneg_of_le_pi (by linarith) (by linarith)

end Verif.Sky
