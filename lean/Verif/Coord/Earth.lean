import Verif.Coord.Bowring
import Mathlib.Analysis.Real.Pi.Bounds

/-!
# Where the conversion is exact, and how far off it is on Earth
-/

namespace Verif.Coord

/-- When numerator and denominator agree, everything comes back exactly. -/
theorem exact_of {e : Ellipsoid} (he : e.Ok) (q : LLA) (h1 : -(Real.pi / 2) < q.lat)
    (h2 : q.lat < Real.pi / 2) (h3 : -Real.pi < q.lon) (h4 : q.lon ≤ Real.pi)
    (hN : 0 < curv e q.lat + q.alt) (hP : 0 < pOf e q.lat q.alt)
    (hZ : zOf e q.lat q.alt - pOf e q.lat q.alt = 0) :
    llaFromXyz1 e (xyzFromLla1 e q) = q := by
  have hZ' : zOf e q.lat q.alt = (1 + 0) * pOf e q.lat q.alt := by linarith
  have a := lat_close he q h1 h2 hN le_rfl hP hZ'
  have b := alt_close he q h1 h2 hN le_rfl hP hZ'
  rw [mul_zero] at a b
  ext
  · exact sub_eq_zero.1 (abs_nonpos_iff.1 a)
  · exact lon_exact q (cos_pos' h1 h2) hN h3 h4
  · exact sub_eq_zero.1 (abs_nonpos_iff.1 b)

theorem root_sq {e : Ellipsoid} (lat : ℝ) :
    Real.sqrt (Real.cos lat ^ 2 + (ratio e * Real.sin lat) ^ 2) ^ 2
      = Real.cos lat ^ 2 + (ratio e * Real.sin lat) ^ 2 := Real.sq_sqrt (by positivity)

/-- **C67.** On the surface the latitude, the longitude and the altitude come back exactly. -/
theorem surface_exact {e : Ellipsoid} (he : e.Ok) (lat lon : ℝ) (h1 : -(Real.pi / 2) < lat)
    (h2 : lat < Real.pi / 2) (h3 : -Real.pi < lon) (h4 : lon ≤ Real.pi) :
    llaFromXyz1 e (xyzFromLla1 e ⟨lat, lon, 0⟩) = ⟨lat, lon, 0⟩ := by
  have hNp := curv_pos he lat
  obtain ⟨hβ0, hβ1⟩ := bDivA2_pos he
  have ha : 0 < e.gpsA := lt_of_lt_of_le he.1 he.2
  have hc := cos_pos' h1 h2
  have ht : tOf e lat 0 = 1 := by
    rw [tOf, add_zero, add_zero]
    exact div_self (by positivity)
  have hw : wOf e lat 0 = Real.sqrt (Real.cos lat ^ 2 + (ratio e * Real.sin lat) ^ 2) := by
    rw [wOf, ht, mul_one]
  have hr := root_sq (e := e) lat
  have hrp : 0 < Real.sqrt (Real.cos lat ^ 2 + (ratio e * Real.sin lat) ^ 2) :=
    Real.sqrt_pos.2 (by positivity)
  apply exact_of he ⟨lat, lon, 0⟩ h1 h2 h3 h4
  · simpa using hNp
  · show 0 < pOf e lat 0
    rw [pOf, hw, curv_eq, add_zero]
    have hs := Real.sin_sq_add_cos_sq lat
    have he2 : e.eSquared = 1 - ratio e ^ 2 := rfl
    have hk0 : 0 < ratio e := div_pos he.1 ha
    generalize Real.sqrt (Real.cos lat ^ 2 + (ratio e * Real.sin lat) ^ 2) = r at *
    have : e.gpsA / r - e.gpsA * e.eSquared * Real.cos lat ^ 2 / r ^ 3
        = e.gpsA * ratio e ^ 2 / r ^ 3 := by
      rw [he2]
      field_simp
      linear_combination hr + ratio e ^ 2 * hs
    rw [this]
    positivity
  · show zOf e lat 0 - pOf e lat 0 = 0
    rw [z_sub_p, ht, hw]
    generalize Real.sqrt (Real.cos lat ^ 2 + (ratio e * Real.sin lat) ^ 2) = r at *
    rw [one_pow, mul_one, ← hr]
    have : r ^ 2 / r ^ 3 - 1 / r = 0 := by field_simp; ring
    rw [this, mul_zero]

/-- **C67.** For a sphere (the default shape of the Moon) they come back exactly at every
altitude above the centre. -/
theorem sphere_exact {e : Ellipsoid} (he : e.Ok) (hs : e.gpsA = e.gpsB) (q : LLA)
    (h1 : -(Real.pi / 2) < q.lat) (h2 : q.lat < Real.pi / 2) (h3 : -Real.pi < q.lon)
    (h4 : q.lon ≤ Real.pi) (h5 : -e.gpsA < q.alt) :
    llaFromXyz1 e (xyzFromLla1 e q) = q := by
  have ha : 0 < e.gpsA := lt_of_lt_of_le he.1 he.2
  have hb : e.bDivA2 = 1 := by
    rw [Ellipsoid.bDivA2, ← hs, div_self ha.ne', one_pow]
  have he2 : e.eSquared = 0 := by rw [Ellipsoid.eSquared, hb, sub_self]
  have hN : curv e q.lat = e.gpsA := by simp [curv, he2]
  have hP : pOf e q.lat q.alt = e.gpsA + q.alt := by rw [pOf, he2, hN]; simp
  apply exact_of he q h1 h2 h3 h4
  · rw [hN]; linarith
  · rw [hP]; linarith
  · rw [z_sub_p, he2]; simp

theorem earth_ok : earth.Ok := by
  unfold Ellipsoid.Ok earth; constructor <;> norm_num

/-- The squared ratio of the radii of the Earth. -/
theorem earth_beta : 0.9933 < earth.bDivA2 ∧ earth.bDivA2 < 0.99331 := by
  unfold Ellipsoid.bDivA2 earth; constructor <;> norm_num

theorem earth_curv (lat : ℝ) : 6378137 ≤ curv earth lat ∧ curv earth lat ≤ 6400000 := by
  have h := curv_sq earth_ok lat
  have hp := curv_pos earth_ok lat
  obtain ⟨b0, b1⟩ := earth_beta
  have hs := Real.sin_sq_add_cos_sq lat
  have h2 : 0 ≤ Real.sin lat ^ 2 := sq_nonneg _
  have h3 : 0 ≤ Real.cos lat ^ 2 := sq_nonneg _
  have ha : earth.gpsA = 6378137 := rfl
  rw [ha] at h
  have hd1 : Real.cos lat ^ 2 + earth.bDivA2 * Real.sin lat ^ 2 ≤ 1 := by nlinarith
  have hd2 : 0.9933 ≤ Real.cos lat ^ 2 + earth.bDivA2 * Real.sin lat ^ 2 := by nlinarith
  constructor
  · apply (pow_le_pow_iff_left₀ (by norm_num) hp.le two_ne_zero).1
    nlinarith [sq_nonneg (curv earth lat)]
  · apply (pow_le_pow_iff_left₀ hp.le (by norm_num) two_ne_zero).1
    nlinarith [sq_nonneg (curv earth lat)]

/-- The difference of `t` from one is tiny near the surface of the Earth. -/
theorem earth_t {lat alt : ℝ} (h : |alt| ≤ 40000) : |tOf earth lat alt - 1| ≤ 4.3e-5 := by
  obtain ⟨b0, b1⟩ := earth_beta
  obtain ⟨n0, n1⟩ := earth_curv lat
  obtain ⟨a0, a1⟩ := abs_le.1 h
  have hd : 0 < earth.bDivA2 * (curv earth lat + alt) := mul_pos (by linarith) (by linarith)
  have : tOf earth lat alt - 1 = alt * (1 - earth.bDivA2)
      / (earth.bDivA2 * (curv earth lat + alt)) := by
    rw [tOf, eq_div_iff hd.ne', sub_mul, div_mul_cancel₀ _ hd.ne']; ring
  rw [this, abs_div, abs_of_pos hd, div_le_iff₀ hd, abs_mul,
    abs_of_pos (show (0:ℝ) < 1 - earth.bDivA2 by linarith)]
  have e1 : |alt| * (1 - earth.bDivA2) ≤ 40000 * 0.0067 := by
    apply mul_le_mul h (by linarith) (by linarith) (by norm_num)
  have e2 : 0.9933 * 6338137 ≤ earth.bDivA2 * (curv earth lat + alt) := by
    apply mul_le_mul b0.le (by linarith) (by norm_num) (by linarith)
  nlinarith

/-- Numbers of the proof, one at a time. -/
theorem t_pows {t : ℝ} (htl : 0.9999 ≤ t) (htu : t ≤ 1.0001) :
    0.9998 ≤ t ^ 2 ∧ t ^ 3 ≤ 1.0004 := by
  have h2 : t ^ 2 ≤ 1.00021 := by nlinarith
  refine ⟨by nlinarith, ?_⟩
  have : t ^ 3 = t ^ 2 * t := by ring
  rw [this]
  exact (mul_le_mul h2 htu (by linarith) (by norm_num)).trans (by norm_num)

theorem root_low {w : ℝ} (hw : 0 < w) (h : 0.993 ≤ w ^ 2) : 0.996 ≤ w ∧ 0.988 ≤ w ^ 3 := by
  have h1 : 0.996 ≤ w := by
    by_contra hcon; push Not at hcon; nlinarith
  refine ⟨h1, ?_⟩
  have : w ^ 3 = w ^ 2 * w := by ring
  rw [this]
  exact le_trans (by norm_num) (mul_le_mul h h1 (by norm_num) (by positivity))

theorem w_low {u v t w : ℝ} (hu : 0 ≤ u) (hv : 0 ≤ v) (huv0 : 0.9933 ≤ u + v)
    (ht2 : 0.9998 ≤ t ^ 2) (hw2 : w ^ 2 = u + v * t ^ 2) : 0.993 ≤ w ^ 2 := by
  have h1 : v * 0.9998 ≤ v * t ^ 2 := mul_le_mul_of_nonneg_left ht2 hv
  rw [hw2]
  linarith

theorem bracket_small {u v t : ℝ} (hu : 0 ≤ u) (hv : 0 ≤ v) (huv1 : u + v ≤ 1)
    (htl : 0.9999 ≤ t) (htu : t ≤ 1.0001) (ht3 : t ^ 3 ≤ 1.0004) :
    u * (2 * t + 1) + v * t ^ 3 * (t + 2) ≤ 3.1 := by
  have e1 : u * (2 * t + 1) ≤ u * 3.1 := mul_le_mul_of_nonneg_left (by linarith) hu
  have e2 : t ^ 3 * (t + 2) ≤ 3.1 :=
    (mul_le_mul ht3 (show t + 2 ≤ 3.0001 by linarith) (by linarith) (by norm_num)).trans
      (by norm_num)
  have e3 : v * (t ^ 3 * (t + 2)) ≤ v * 3.1 := mul_le_mul_of_nonneg_left e2 hv
  have e4 : v * t ^ 3 * (t + 2) = v * (t ^ 3 * (t + 2)) := by ring
  linarith

/-- Numbers of the proof: the fractions differ by at most the square of the deviation. -/
theorem gap_small {u v t w r : ℝ} (hu : 0 ≤ u) (hv : 0 ≤ v) (huv0 : 0.9933 ≤ u + v)
    (huv1 : u + v ≤ 1) (ht : |t - 1| ≤ 4.3e-5) (hw : 0 < w) (hr : 0 < r)
    (hw2 : w ^ 2 = u + v * t ^ 2) (hr2 : r ^ 2 = u + v) :
    0 ≤ (u + v * t ^ 3) / w ^ 3 - 1 / r ∧ (u + v * t ^ 3) / w ^ 3 - 1 / r ≤ (t - 1) ^ 2 := by
  obtain ⟨t0, t1⟩ := abs_le.1 ht
  have htl : 0.9999 ≤ t := by linarith
  have htu : t ≤ 1.0001 := by linarith
  have htp : 0 < t := by linarith
  have hpos : 0 < u + v * t ^ 3 := by
    rcases hu.lt_or_eq with h | h
    · positivity
    · have : 0 < v := by linarith
      positivity
  rw [gap_eq hw hr hw2 hr2 hpos]
  have hB0 : 0 ≤ u * (2 * t + 1) + v * t ^ 3 * (t + 2) := by positivity
  have hnum : 0 ≤ u * v * (t - 1) ^ 2 * (u * (2 * t + 1) + v * t ^ 3 * (t + 2)) := by positivity
  obtain ⟨ht2, ht3⟩ := t_pows htl htu
  obtain ⟨hw1, hw3⟩ := root_low hw (w_low hu hv huv0 ht2 hw2)
  obtain ⟨hr1, -⟩ := root_low hr (by rw [hr2]; linarith)
  have hden : 0.97 ≤ w ^ 3 * r * ((u + v * t ^ 3) * r + w ^ 3) := by
    have e1 : (0.984 : ℝ) ≤ w ^ 3 * r :=
      le_trans (by norm_num) (mul_le_mul hw3 hr1 (by norm_num) (by positivity))
    have e2 : 0.988 ≤ (u + v * t ^ 3) * r + w ^ 3 := by
      have : 0 ≤ (u + v * t ^ 3) * r := by positivity
      linarith
    exact le_trans (by norm_num) (mul_le_mul e1 e2 (by norm_num) (by positivity))
  have hbr := bracket_small hu hv huv1 htl htu ht3
  have huv : u * v ≤ 1 / 4 := by nlinarith [sq_nonneg (u - v)]
  have huv' : 0 ≤ u * v := mul_nonneg hu hv
  refine ⟨by positivity, ?_⟩
  rw [div_le_iff₀ (by linarith)]
  have e1 : u * v * (u * (2 * t + 1) + v * t ^ 3 * (t + 2)) ≤ 1 / 4 * 3.1 :=
    mul_le_mul huv hbr hB0 (by norm_num)
  have e2 := mul_le_mul_of_nonneg_left e1 (sq_nonneg (t - 1))
  have e3 := mul_le_mul_of_nonneg_left hden (sq_nonneg (t - 1))
  have e4 := sq_nonneg (t - 1)
  have e5 : (t - 1) ^ 2 * (1 / 4 * 3.1) ≤ (t - 1) ^ 2 * 0.97 :=
    mul_le_mul_of_nonneg_left (by norm_num) e4
  have e6 : u * v * (t - 1) ^ 2 * (u * (2 * t + 1) + v * t ^ 3 * (t + 2))
      = (t - 1) ^ 2 * (u * v * (u * (2 * t + 1) + v * t ^ 3 * (t + 2))) := by ring
  rw [e6]
  exact e2.trans (e5.trans e3)

/-- The relative error of the formula on Earth. -/
theorem earth_eta {lat alt : ℝ} (h1 : -(Real.pi / 2) < lat) (h2 : lat < Real.pi / 2)
    (h : |alt| ≤ 40000) :
    0 < pOf earth lat alt ∧ ∃ η : ℝ, 0 ≤ η ∧ η ≤ 1.26e-11 ∧
      zOf earth lat alt = (1 + η) * pOf earth lat alt := by
  obtain ⟨b0, b1⟩ := earth_beta
  obtain ⟨n0, n1⟩ := earth_curv lat
  obtain ⟨a0, a1⟩ := abs_le.1 h
  have hc := cos_pos' h1 h2
  have hs := Real.sin_sq_add_cos_sq lat
  have h2s : 0 ≤ Real.sin lat ^ 2 := sq_nonneg _
  have h2c : 0 ≤ Real.cos lat ^ 2 := sq_nonneg _
  have hk : earth.bDivA2 = ratio earth ^ 2 := rfl
  have hw := w_pos (e := earth) (lat := lat) (alt := alt) hc
  have hw2 : wOf earth lat alt ^ 2
      = Real.cos lat ^ 2 + (ratio earth * Real.sin lat) ^ 2 * tOf earth lat alt ^ 2 := by
    rw [wOf, Real.sq_sqrt (by positivity)]; ring
  have hr := root_sq (e := earth) lat
  have hrp : 0 < Real.sqrt (Real.cos lat ^ 2 + (ratio earth * Real.sin lat) ^ 2) :=
    Real.sqrt_pos.2 (by positivity)
  have ht := earth_t (lat := lat) h
  have hv : (ratio earth * Real.sin lat) ^ 2 = earth.bDivA2 * Real.sin lat ^ 2 := by
    rw [hk]; ring
  have huv0 : 0.9933 ≤ Real.cos lat ^ 2 + (ratio earth * Real.sin lat) ^ 2 := by
    rw [hv]; nlinarith
  have huv1 : Real.cos lat ^ 2 + (ratio earth * Real.sin lat) ^ 2 ≤ 1 := by
    rw [hv]; nlinarith
  obtain ⟨g0, g1⟩ := gap_small h2c (sq_nonneg _) huv0 huv1 ht hw hrp hw2 hr
  have ha : earth.gpsA = 6378137 := rfl
  have he2 : earth.eSquared = 1 - earth.bDivA2 := rfl
  have hw3 : 0.988 ≤ wOf earth lat alt ^ 3 := by
    obtain ⟨t0, t1⟩ := abs_le.1 ht
    have ht2 := (t_pows (t := tOf earth lat alt) (by linarith) (by linarith)).1
    exact (root_low hw (w_low h2c (sq_nonneg _) huv0 ht2 hw2)).2
  have hP : 6290000 ≤ pOf earth lat alt := by
    have e1 : earth.gpsA * earth.eSquared * Real.cos lat ^ 2 / wOf earth lat alt ^ 3 ≤ 48000 := by
      rw [div_le_iff₀ (by linarith), ha, he2]
      have h6 : Real.cos lat ^ 2 ≤ 1 := by linarith
      have h7 : 6378137 * (1 - earth.bDivA2) * Real.cos lat ^ 2 ≤ 42734 * 1 :=
        mul_le_mul (by linarith) h6 h2c (by norm_num)
      linarith
    rw [pOf]; linarith
  have hPp : 0 < pOf earth lat alt := by linarith
  refine ⟨hPp, (zOf earth lat alt - pOf earth lat alt) / pOf earth lat alt, ?_, ?_, ?_⟩
  · apply div_nonneg _ hPp.le
    rw [z_sub_p]
    apply mul_nonneg _ g0
    rw [ha, he2]; linarith
  · rw [div_le_iff₀ hPp, z_sub_p]
    have e0 : earth.gpsA * earth.eSquared ≤ 42734 := by rw [ha, he2]; linarith
    have e0' : 0 ≤ earth.gpsA * earth.eSquared := by rw [ha, he2]; linarith
    have e1 : (tOf earth lat alt - 1) ^ 2 ≤ 1.85e-9 := by
      rw [← sq_abs]
      exact (pow_le_pow_left₀ (abs_nonneg _) ht 2).trans (by norm_num)
    have e2 := mul_le_mul e0 (g1.trans e1) g0 (by norm_num : (0:ℝ) ≤ 42734)
    have e3 : (42734 : ℝ) * 1.85e-9 ≤ 1.26e-11 * 6290000 := by norm_num
    have e4 : (1.26e-11 : ℝ) * 6290000 ≤ 1.26e-11 * pOf earth lat alt :=
      mul_le_mul_of_nonneg_left hP (by norm_num)
    exact e2.trans (e3.trans e4)
  · field_simp
    ring

/-- **C67.** On Earth, between 40 km below and 40 km above the surface and away from the exact
poles, the longitude comes back exactly, the latitude within `2·10⁻¹¹` radians and the altitude
within a tenth of a millimetre. -/
theorem earth_roundtrip (q : LLA) (h1 : -(Real.pi / 2) < q.lat) (h2 : q.lat < Real.pi / 2)
    (h3 : -Real.pi < q.lon) (h4 : q.lon ≤ Real.pi) (h5 : |q.alt| ≤ 40000) :
    (llaFromXyz1 earth (xyzFromLla1 earth q)).lon = q.lon ∧
    |(llaFromXyz1 earth (xyzFromLla1 earth q)).lat - q.lat| ≤ 2e-11 ∧
    |(llaFromXyz1 earth (xyzFromLla1 earth q)).alt - q.alt| ≤ 1e-4 := by
  obtain ⟨hP, η, e0, e1, e2⟩ := earth_eta h1 h2 h5
  obtain ⟨n0, n1⟩ := earth_curv q.lat
  obtain ⟨a0, a1⟩ := abs_le.1 h5
  have hN : 0 < curv earth q.lat + q.alt := by linarith
  refine ⟨lon_exact q (cos_pos' h1 h2) hN h3 h4, ?_, ?_⟩
  · refine (lat_close earth_ok q h1 h2 hN e0 hP e2).trans ?_
    have := Real.pi_lt_d2
    have := Real.pi_pos
    nlinarith
  · refine (alt_close earth_ok q h1 h2 hN e0 hP e2).trans ?_
    have := abs_nonneg q.alt
    have : curv earth q.lat + |q.alt| ≤ 6440000 := by linarith
    nlinarith

end Verif.Coord
