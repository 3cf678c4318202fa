import Verif.Coord.Geo
import Mathlib.Tactic.NormNum

/-!
# How well latitude and altitude are recovered
-/

namespace Verif.Coord

noncomputable section

/-- Ratio of the radii. -/
def ratio (e : Ellipsoid) : ℝ := e.gpsB / e.gpsA

/-- Ratio of the tangents of the true and the surface parametric latitude. -/
def tOf (e : Ellipsoid) (lat alt : ℝ) : ℝ :=
  (e.bDivA2 * curv e lat + alt) / (e.bDivA2 * (curv e lat + alt))

/-- `√(cos² + k² t² sin²)`. -/
def wOf (e : Ellipsoid) (lat alt : ℝ) : ℝ :=
  Real.sqrt (Real.cos lat ^ 2 + (ratio e * tOf e lat alt * Real.sin lat) ^ 2)

/-- Numerator of the formula, without the sine. -/
def zOf (e : Ellipsoid) (lat alt : ℝ) : ℝ :=
  (e.bDivA2 * curv e lat + alt)
    + e.gpsA * e.eSquared * e.bDivA2 * tOf e lat alt ^ 3 * Real.sin lat ^ 2 / wOf e lat alt ^ 3

/-- Denominator of the formula, without the cosine. -/
def pOf (e : Ellipsoid) (lat alt : ℝ) : ℝ :=
  (curv e lat + alt) - e.gpsA * e.eSquared * Real.cos lat ^ 2 / wOf e lat alt ^ 3

theorem cos_pos' {lat : ℝ} (h1 : -(Real.pi / 2) < lat) (h2 : lat < Real.pi / 2) :
    0 < Real.cos lat := Real.cos_pos_of_mem_Ioo ⟨h1, h2⟩

theorem hyp_eq {e : Ellipsoid} (q : LLA) (hc : 0 ≤ Real.cos q.lat)
    (hN : 0 ≤ curv e q.lat + q.alt) :
    Real.sqrt ((xyzFromLla1 e q).x ^ 2 + (xyzFromLla1 e q).y ^ 2)
      = (curv e q.lat + q.alt) * Real.cos q.lat := by
  rw [xyzFromLla1_eq]
  simp only
  rw [show ((curv e q.lat + q.alt) * Real.cos q.lat * Real.cos q.lon) ^ 2
      + ((curv e q.lat + q.alt) * Real.cos q.lat * Real.sin q.lon) ^ 2
      = ((curv e q.lat + q.alt) * Real.cos q.lat) ^ 2 by
    linear_combination ((curv e q.lat + q.alt) * Real.cos q.lat) ^ 2
      * Real.sin_sq_add_cos_sq q.lon]
  exact Real.sqrt_sq (mul_nonneg hN hc)

/-- The longitude comes back exactly, away from the poles. -/
theorem lon_exact {e : Ellipsoid} (q : LLA) (hc : 0 < Real.cos q.lat)
    (hN : 0 < curv e q.lat + q.alt) (h1 : -Real.pi < q.lon) (h2 : q.lon ≤ Real.pi) :
    (llaFromXyz1 e (xyzFromLla1 e q)).lon = q.lon := by
  simp only [llaFromXyz1, xyzFromLla1_eq]
  exact atan2_polar (mul_pos hN hc) h1 h2

theorem w_pos {e : Ellipsoid} {lat alt : ℝ} (hc : 0 < Real.cos lat) : 0 < wOf e lat alt := by
  apply Real.sqrt_pos.2; positivity

/-- The latitude that the formula returns. -/
theorem lat_formula {e : Ellipsoid} (he : e.Ok) (q : LLA) (hc : 0 < Real.cos q.lat)
    (hN : 0 < curv e q.lat + q.alt) :
    (llaFromXyz1 e (xyzFromLla1 e q)).lat
      = atan2 (Real.sin q.lat * zOf e q.lat q.alt) (Real.cos q.lat * pOf e q.lat q.alt) := by
  have ha : 0 < e.gpsA := lt_of_lt_of_le he.1 he.2
  have hb := he.1
  have hk : e.bDivA2 = ratio e ^ 2 := rfl
  have hk0 : 0 < ratio e := div_pos hb ha
  have hbk : e.gpsB = ratio e * e.gpsA := by rw [ratio]; field_simp
  have hw := w_pos (e := e) (lat := q.lat) (alt := q.alt) hc
  simp only [llaFromXyz1, hyp_eq q hc.le hN.le]
  have hz : (xyzFromLla1 e q).z = (e.bDivA2 * curv e q.lat + q.alt) * Real.sin q.lat := rfl
  rw [hz]
  have hθ : atan2 ((e.bDivA2 * curv e q.lat + q.alt) * Real.sin q.lat * e.gpsA)
      ((curv e q.lat + q.alt) * Real.cos q.lat * e.gpsB)
      = atan2 (ratio e * tOf e q.lat q.alt * Real.sin q.lat) (Real.cos q.lat) := by
    rw [← atan2_scale (mul_pos hN hb) (ratio e * tOf e q.lat q.alt * Real.sin q.lat)]
    congr 1
    · rw [tOf, hk, hbk]; field_simp
    · ring
  have hpos : 0 < Real.cos q.lat ^ 2 + (ratio e * tOf e q.lat q.alt * Real.sin q.lat) ^ 2 := by
    positivity
  rw [hθ, sin_atan2, cos_atan2 hpos]
  have hw' : Real.sqrt (Real.cos q.lat ^ 2 + (ratio e * tOf e q.lat q.alt * Real.sin q.lat) ^ 2)
      = wOf e q.lat q.alt := rfl
  rw [hw', zOf, pOf]
  generalize wOf e q.lat q.alt = w at *
  generalize tOf e q.lat q.alt = t at *
  congr 1
  · simp only [Ellipsoid.ePrimeSquared, Ellipsoid.eSquared, hbk, hk]
    generalize ratio e = k at *
    field_simp
  · field_simp

/-- `N = a / √(u + v)`. -/
theorem curv_eq {e : Ellipsoid} (lat : ℝ) : curv e lat
    = e.gpsA / Real.sqrt (Real.cos lat ^ 2 + (ratio e * Real.sin lat) ^ 2) := by
  rw [curv, rad_eq]
  congr 2
  have hk : e.bDivA2 = ratio e ^ 2 := rfl
  rw [hk]; ring

/-- The polynomial behind the error of the formula. -/
theorem bowring_poly (u v t : ℝ) : (u + v * t ^ 3) ^ 2 * (u + v) - (u + v * t ^ 2) ^ 3
    = u * v * (t - 1) ^ 2 * (u * (2 * t + 1) + v * t ^ 3 * (t + 2)) := by ring

/-- Numerator minus denominator. -/
theorem z_sub_p {e : Ellipsoid} (lat alt : ℝ) :
    zOf e lat alt - pOf e lat alt = e.gpsA * e.eSquared *
      ((Real.cos lat ^ 2 + (ratio e * Real.sin lat) ^ 2 * tOf e lat alt ^ 3) / wOf e lat alt ^ 3
        - 1 / Real.sqrt (Real.cos lat ^ 2 + (ratio e * Real.sin lat) ^ 2)) := by
  have hk : e.bDivA2 = ratio e ^ 2 := rfl
  have he : e.eSquared = 1 - ratio e ^ 2 := rfl
  rw [zOf, pOf]
  have hN := curv_eq (e := e) lat
  rw [hk]
  generalize wOf e lat alt = w
  generalize tOf e lat alt = t
  generalize Real.sqrt (Real.cos lat ^ 2 + (ratio e * Real.sin lat) ^ 2) = r at *
  have : curv e lat = e.gpsA * (1 / r) := by rw [hN]; ring
  rw [this, he]
  ring

/-- The gap of the two fractions as a quotient of polynomials. -/
theorem gap_eq {u v t w r : ℝ} (hw : 0 < w) (hr : 0 < r) (hw2 : w ^ 2 = u + v * t ^ 2)
    (hr2 : r ^ 2 = u + v) (hpos : 0 < u + v * t ^ 3) :
    (u + v * t ^ 3) / w ^ 3 - 1 / r
      = u * v * (t - 1) ^ 2 * (u * (2 * t + 1) + v * t ^ 3 * (t + 2))
        / (w ^ 3 * r * ((u + v * t ^ 3) * r + w ^ 3)) := by
  have h := bowring_poly u v t
  rw [← hw2, ← hr2] at h
  have hd : 0 < (u + v * t ^ 3) * r + w ^ 3 := by positivity
  rw [← h]
  field_simp
  ring

/-- `√(cos² + ((1 + η) sin)²)`. -/
def rhoOf (lat η : ℝ) : ℝ := Real.sqrt (Real.cos lat ^ 2 + ((1 + η) * Real.sin lat) ^ 2)

theorem rho_bounds {lat η : ℝ} (hη : 0 ≤ η) : 1 ≤ rhoOf lat η ∧ rhoOf lat η ≤ 1 + η := by
  have h1 := Real.sin_sq_add_cos_sq lat
  have h2 : 0 ≤ Real.sin lat ^ 2 := sq_nonneg _
  have h3 : 0 ≤ Real.cos lat ^ 2 := sq_nonneg _
  constructor
  · rw [rhoOf]
    apply Real.le_sqrt_of_sq_le
    nlinarith [mul_nonneg hη h2, mul_nonneg (mul_nonneg hη hη) h2]
  · rw [rhoOf]
    apply Real.sqrt_le_iff.2 ⟨by linarith, ?_⟩
    nlinarith [mul_nonneg hη h3, mul_nonneg (mul_nonneg hη hη) h3]

/-- Sine and cosine of the returned latitude when numerator and denominator are nearly in the
right proportion. -/
theorem lat_trig {e : Ellipsoid} (he : e.Ok) (q : LLA) (hc : 0 < Real.cos q.lat)
    (hN : 0 < curv e q.lat + q.alt) {η : ℝ} (hP : 0 < pOf e q.lat q.alt)
    (hZ : zOf e q.lat q.alt = (1 + η) * pOf e q.lat q.alt) :
    -(Real.pi / 2) < (llaFromXyz1 e (xyzFromLla1 e q)).lat ∧
    (llaFromXyz1 e (xyzFromLla1 e q)).lat < Real.pi / 2 ∧
    Real.sin (llaFromXyz1 e (xyzFromLla1 e q)).lat
      = (1 + η) * Real.sin q.lat / rhoOf q.lat η ∧
    Real.cos (llaFromXyz1 e (xyzFromLla1 e q)).lat = Real.cos q.lat / rhoOf q.lat η := by
  have hl : (llaFromXyz1 e (xyzFromLla1 e q)).lat
      = atan2 ((1 + η) * Real.sin q.lat) (Real.cos q.lat) := by
    rw [lat_formula he q hc hN, hZ, ← atan2_scale hP ((1 + η) * Real.sin q.lat)]
    congr 1 <;> ring
  rw [hl]
  obtain ⟨h1, h2⟩ := atan2_range (y := (1 + η) * Real.sin q.lat) hc
  refine ⟨h1, h2, sin_atan2 _ _, cos_atan2 (by positivity)⟩

/-- The latitude is off by at most `π/2` times the relative error. -/
theorem lat_close {e : Ellipsoid} (he : e.Ok) (q : LLA) (h1 : -(Real.pi / 2) < q.lat)
    (h2 : q.lat < Real.pi / 2) (hN : 0 < curv e q.lat + q.alt) {η : ℝ} (hη : 0 ≤ η)
    (hP : 0 < pOf e q.lat q.alt) (hZ : zOf e q.lat q.alt = (1 + η) * pOf e q.lat q.alt) :
    |(llaFromXyz1 e (xyzFromLla1 e q)).lat - q.lat| ≤ Real.pi / 2 * η := by
  have hc := cos_pos' h1 h2
  obtain ⟨l1, l2, ls, lc⟩ := lat_trig he q hc hN hP hZ
  generalize (llaFromXyz1 e (xyzFromLla1 e q)).lat = l at *
  obtain ⟨r1, -⟩ := rho_bounds (lat := q.lat) hη
  have hr : 0 < rhoOf q.lat η := by linarith
  have hsin : Real.sin (l - q.lat)
      = η * (Real.sin q.lat * Real.cos q.lat / rhoOf q.lat η) := by
    rw [Real.sin_sub, ls, lc]; field_simp; ring
  have hcos : 0 < Real.cos (l - q.lat) := by
    have : Real.cos (l - q.lat) = (Real.cos q.lat ^ 2 + (1 + η) * Real.sin q.lat ^ 2)
        / rhoOf q.lat η := by
      rw [Real.cos_sub, ls, lc]; field_simp
    rw [this]
    positivity
  have hsc : |Real.sin q.lat * Real.cos q.lat / rhoOf q.lat η| ≤ 1 := by
    rw [abs_div, abs_of_pos hr, abs_mul, div_le_one hr]
    have a1 := Real.abs_sin_le_one q.lat
    have a2 := Real.abs_cos_le_one q.lat
    have := mul_le_one₀ a1 (abs_nonneg _) a2
    linarith
  have hs : |Real.sin (l - q.lat)| ≤ η := by
    rw [hsin, abs_mul, abs_of_nonneg hη]
    nlinarith
  have hrange : |l - q.lat| ≤ Real.pi / 2 := by
    by_contra hcon
    push Not at hcon
    have hlt : |l - q.lat| < Real.pi := abs_lt.2 ⟨by linarith, by linarith⟩
    have : Real.cos |l - q.lat| < 0 :=
      Real.cos_neg_of_pi_div_two_lt_of_lt hcon (by linarith [Real.pi_pos])
    rw [Real.cos_abs] at this
    linarith
  have hj := Real.mul_le_sin (abs_nonneg (l - q.lat)) hrange
  have habs : Real.sin |l - q.lat| ≤ |Real.sin (l - q.lat)| := by
    rcases abs_cases (l - q.lat) with ⟨h, _⟩ | ⟨h, _⟩
    · rw [h]; exact le_abs_self _
    · rw [h, Real.sin_neg]; exact neg_le_abs _
  have hpi := Real.pi_pos
  have : 2 / Real.pi * |l - q.lat| ≤ η := by linarith
  have h3 : |l - q.lat| = Real.pi / 2 * (2 / Real.pi * |l - q.lat|) := by field_simp
  rw [h3]
  exact mul_le_mul_of_nonneg_left this (by positivity)

/-- The radius of curvature at the returned latitude. -/
theorem curv_close {e : Ellipsoid} (he : e.Ok) {lat l η : ℝ} (hη : 0 ≤ η)
    (ls : Real.sin l = (1 + η) * Real.sin lat / rhoOf lat η)
    (lc : Real.cos l = Real.cos lat / rhoOf lat η) :
    curv e lat ≤ curv e l ∧ curv e l ≤ rhoOf lat η * curv e lat := by
  obtain ⟨r1, -⟩ := rho_bounds (lat := lat) hη
  have hr : 0 < rhoOf lat η := by linarith
  have ha : 0 < e.gpsA := lt_of_lt_of_le he.1 he.2
  obtain ⟨hβ0, hβ1⟩ := bDivA2_pos he
  have hN := curv_sq he lat
  have hN' := curv_sq he l
  have p1 := curv_pos he lat
  have p2 := curv_pos he l
  have hsc := Real.sin_sq_add_cos_sq lat
  have hρ : rhoOf lat η ^ 2 = Real.cos lat ^ 2 + ((1 + η) * Real.sin lat) ^ 2 :=
    Real.sq_sqrt (by positivity)
  rw [ls, lc] at hN'
  have hN'' : curv e l ^ 2 * (Real.cos lat ^ 2 + e.bDivA2 * ((1 + η) * Real.sin lat) ^ 2)
      = e.gpsA ^ 2 * rhoOf lat η ^ 2 := by
    rw [← hN']; field_simp
  have hD0 : 0 < Real.cos lat ^ 2 + e.bDivA2 * Real.sin lat ^ 2 := by
    rw [← rad_eq]; exact rad_pos he lat
  have hS : Real.sin lat ^ 2 ≤ ((1 + η) * Real.sin lat) ^ 2 := by
    have := sq_nonneg (Real.sin lat)
    nlinarith [mul_nonneg hη this, mul_nonneg (mul_nonneg hη hη) this]
  have hD1 : 0 < Real.cos lat ^ 2 + e.bDivA2 * ((1 + η) * Real.sin lat) ^ 2 := by
    nlinarith
  constructor
  · apply (pow_le_pow_iff_left₀ p1.le p2.le two_ne_zero).1
    have key : (Real.cos lat ^ 2 + e.bDivA2 * ((1 + η) * Real.sin lat) ^ 2)
        ≤ (Real.cos lat ^ 2 + e.bDivA2 * Real.sin lat ^ 2) * rhoOf lat η ^ 2 := by
      rw [hρ]
      have hcs : 0 ≤ Real.cos lat ^ 2 * (1 - e.bDivA2)
          * (((1 + η) * Real.sin lat) ^ 2 - Real.sin lat ^ 2) :=
        mul_nonneg (mul_nonneg (sq_nonneg _) (by linarith)) (by linarith)
      have : (Real.cos lat ^ 2 + e.bDivA2 * Real.sin lat ^ 2)
          * (Real.cos lat ^ 2 + ((1 + η) * Real.sin lat) ^ 2)
          - (Real.cos lat ^ 2 + e.bDivA2 * ((1 + η) * Real.sin lat) ^ 2)
          * (Real.sin lat ^ 2 + Real.cos lat ^ 2)
          = Real.cos lat ^ 2 * (1 - e.bDivA2)
          * (((1 + η) * Real.sin lat) ^ 2 - Real.sin lat ^ 2) := by ring
      rw [hsc] at this
      linarith
    have e1 : curv e lat ^ 2 = e.gpsA ^ 2
        / (Real.cos lat ^ 2 + e.bDivA2 * Real.sin lat ^ 2) := by
      rw [eq_div_iff hD0.ne', hN]
    have e2 : curv e l ^ 2 = e.gpsA ^ 2 * rhoOf lat η ^ 2
        / (Real.cos lat ^ 2 + e.bDivA2 * ((1 + η) * Real.sin lat) ^ 2) := by
      rw [eq_div_iff hD1.ne', hN'']
    rw [e1, e2, div_le_div_iff₀ hD0 hD1]
    have := mul_le_mul_of_nonneg_left key (sq_nonneg e.gpsA)
    linarith
  · apply (pow_le_pow_iff_left₀ p2.le (by positivity) two_ne_zero).1
    rw [mul_pow]
    have h : curv e l ^ 2 * (Real.cos lat ^ 2 + e.bDivA2 * Real.sin lat ^ 2)
        ≤ (rhoOf lat η ^ 2 * curv e lat ^ 2)
          * (Real.cos lat ^ 2 + e.bDivA2 * Real.sin lat ^ 2) := by
      rw [mul_assoc, hN, mul_comm (rhoOf lat η ^ 2), ← hN'']
      have : 0 ≤ curv e l ^ 2 := sq_nonneg _
      have h5 : Real.cos lat ^ 2 + e.bDivA2 * Real.sin lat ^ 2
        ≤ Real.cos lat ^ 2 + e.bDivA2 * ((1 + η) * Real.sin lat) ^ 2 := by nlinarith
      exact mul_le_mul_of_nonneg_left h5 this
    exact le_of_mul_le_mul_right h hD0

/-- The altitude is off by at most the distance from the centre times the relative error. -/
theorem alt_close {e : Ellipsoid} (he : e.Ok) (q : LLA) (h1 : -(Real.pi / 2) < q.lat)
    (h2 : q.lat < Real.pi / 2) (hN : 0 < curv e q.lat + q.alt) {η : ℝ} (hη : 0 ≤ η)
    (hP : 0 < pOf e q.lat q.alt) (hZ : zOf e q.lat q.alt = (1 + η) * pOf e q.lat q.alt) :
    |(llaFromXyz1 e (xyzFromLla1 e q)).alt - q.alt| ≤ (curv e q.lat + |q.alt|) * η := by
  have hc := cos_pos' h1 h2
  obtain ⟨l1, l2, ls, lc⟩ := lat_trig he q hc hN hP hZ
  have halt : (llaFromXyz1 e (xyzFromLla1 e q)).alt
      = (curv e q.lat + q.alt) * Real.cos q.lat
        / Real.cos (llaFromXyz1 e (xyzFromLla1 e q)).lat
        - curv e (llaFromXyz1 e (xyzFromLla1 e q)).lat := by
    rw [← hyp_eq q hc.le hN.le]; rfl
  rw [halt]
  generalize (llaFromXyz1 e (xyzFromLla1 e q)).lat = l at *
  obtain ⟨c1, c2⟩ := curv_close he hη ls lc
  obtain ⟨r1, r2⟩ := rho_bounds (lat := q.lat) hη
  have hr : 0 < rhoOf q.lat η := by linarith
  have : (curv e q.lat + q.alt) * Real.cos q.lat / Real.cos l
      = (curv e q.lat + q.alt) * rhoOf q.lat η := by rw [lc]; field_simp
  rw [this]
  have p1 := curv_pos he q.lat
  have ha1 := neg_abs_le q.alt
  have ha2 := le_abs_self q.alt
  rw [abs_le]
  constructor <;> nlinarith [abs_nonneg q.alt]

end

end Verif.Coord
