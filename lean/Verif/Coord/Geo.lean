import Verif.Coord.Props
import Mathlib.Analysis.SpecialFunctions.Trigonometric.Bounds

/-!
# Latitude, longitude and altitude

`LatLonAlt_from_XYZ` applies one step of Bowring's formula.  It is exact on the surface, on the
equator and for a sphere, and elsewhere it is off by a tiny amount that is bounded here.
-/

namespace Verif.Coord

/-! ## `atan2` -/

theorem atan2_polar {r θ : ℝ} (hr : 0 < r) (h1 : -Real.pi < θ) (h2 : θ ≤ Real.pi) :
    atan2 (r * Real.sin θ) (r * Real.cos θ) = θ := by
  have := Complex.arg_mul_cos_add_sin_mul_I hr (θ := θ) ⟨h1, h2⟩
  rw [atan2]
  conv_rhs => rw [← this]
  congr 1
  apply Complex.ext
  · simp [Complex.cos_ofReal_re, Complex.sin_ofReal_im]
  · simp [Complex.cos_ofReal_im, Complex.sin_ofReal_re]

theorem atan2_scale {r : ℝ} (hr : 0 < r) (y x : ℝ) : atan2 (r * y) (r * x) = atan2 y x := by
  rw [atan2, atan2, ← Complex.arg_real_mul ⟨x, y⟩ hr]
  congr 1
  apply Complex.ext <;> simp

theorem sin_atan2 (y x : ℝ) : Real.sin (atan2 y x) = y / Real.sqrt (x ^ 2 + y ^ 2) := by
  rw [atan2, Complex.sin_arg, Complex.norm_def, Complex.normSq_mk]
  simp [sq]

theorem cos_atan2 {y x : ℝ} (h : 0 < x ^ 2 + y ^ 2) :
    Real.cos (atan2 y x) = x / Real.sqrt (x ^ 2 + y ^ 2) := by
  have hne : (⟨x, y⟩ : ℂ) ≠ 0 := by
    intro h0
    have hx := congrArg Complex.re h0
    have hy := congrArg Complex.im h0
    simp at hx hy
    simp [hx, hy] at h
  rw [atan2, Complex.cos_arg hne, Complex.norm_def, Complex.normSq_mk]
  simp [sq]

theorem atan2_range {y x : ℝ} (hx : 0 < x) :
    -(Real.pi / 2) < atan2 y x ∧ atan2 y x < Real.pi / 2 := by
  have : |Complex.arg ⟨x, y⟩| < Real.pi / 2 := Complex.abs_arg_lt_pi_div_two_iff.2 (.inl hx)
  exact abs_lt.1 this

/-! ## The forward direction gives geodetic coordinates -/

theorem rad_eq (e : Ellipsoid) (lat : ℝ) : 1 - e.eSquared * Real.sin lat ^ 2
    = Real.cos lat ^ 2 + e.bDivA2 * Real.sin lat ^ 2 := by
  unfold Ellipsoid.eSquared
  linear_combination -(Real.sin_sq_add_cos_sq lat)

theorem curv_sq {e : Ellipsoid} (he : e.Ok) (lat : ℝ) :
    curv e lat ^ 2 * (Real.cos lat ^ 2 + e.bDivA2 * Real.sin lat ^ 2) = e.gpsA ^ 2 := by
  have hp := rad_pos he lat
  have hq2 := Real.sq_sqrt hp.le
  have hq := (Real.sqrt_pos.2 hp).ne'
  rw [← rad_eq, curv, ← hq2]
  rw [Real.sqrt_sq (Real.sqrt_nonneg _)]
  field_simp

/-- **C67.** Altitude zero is the surface of the ellipsoid; at every altitude the point lies on
the normal of the surface, that many metres above it (below it when negative), and the normal
makes the angle `lat` with the plane of the equator, in the half plane of the longitude. -/
theorem xyz_geodetic {e : Ellipsoid} (he : e.Ok) (lat lon alt : ℝ) :
    OnSurface e (xyzFromLla1 e ⟨lat, lon, 0⟩) ∧
    Along (normalAt e (xyzFromLla1 e ⟨lat, lon, 0⟩)) (xyzFromLla1 e ⟨lat, lon, 0⟩)
      (xyzFromLla1 e ⟨lat, lon, alt⟩) alt ∧
    ∃ r : ℝ, 0 < r ∧ normalAt e (xyzFromLla1 e ⟨lat, lon, 0⟩) =
      ⟨r * (Real.cos lat * Real.cos lon), r * (Real.cos lat * Real.sin lon),
        r * Real.sin lat⟩ := by
  have h1 := Real.sin_sq_add_cos_sq lat
  have h2 := Real.sin_sq_add_cos_sq lon
  have ha : 0 < e.gpsA := lt_of_lt_of_le he.1 he.2
  have hb := he.1
  have hN := curv_sq he lat
  have hNp := curv_pos he lat
  have hβ : e.bDivA2 = e.gpsB ^ 2 / e.gpsA ^ 2 := by rw [Ellipsoid.bDivA2, div_pow]
  have hnorm : normalAt e (xyzFromLla1 e ⟨lat, lon, 0⟩) =
      ⟨(curv e lat / e.gpsA ^ 2) * (Real.cos lat * Real.cos lon),
       (curv e lat / e.gpsA ^ 2) * (Real.cos lat * Real.sin lon),
       (curv e lat / e.gpsA ^ 2) * Real.sin lat⟩ := by
    simp only [normalAt, xyzFromLla1_eq, hβ]
    ext <;> simp only <;> field_simp <;> ring
  refine ⟨?_, ?_, curv e lat / e.gpsA ^ 2, by positivity, hnorm⟩
  · simp only [OnSurface, xyzFromLla1_eq]
    rw [hβ] at hN ⊢
    field_simp
    field_simp at hN
    linear_combination e.gpsB ^ 2 * hN + (curv e lat ^ 2 * Real.cos lat ^ 2 * e.gpsA ^ 2 * e.gpsB ^ 2) * h2
  · refine ⟨e.gpsA ^ 2 / curv e lat, by positivity, ?_, ?_⟩
    · rw [hnorm]
      simp only
      have : e.gpsA ^ 2 / curv e lat * (curv e lat / e.gpsA ^ 2) = 1 := by field_simp
      simp only [← mul_assoc, this, one_mul]
      linear_combination Real.cos lat ^ 2 * h2 + h1
    · rw [hnorm]
      have : ∀ x : ℝ, e.gpsA ^ 2 / curv e lat * (curv e lat / e.gpsA ^ 2 * x) = x := by
        intro x; field_simp
      simp only [this, xyzFromLla1_eq]
      ext <;> simp only <;> ring

end Verif.Coord
