import Verif.Coord.Earth

/-!
# The conversions a user calls, and where they fail
-/

namespace Verif.Coord

/-! ## Whole arrays -/

theorem zipLla_get : ∀ (lat lon alt : List ℝ), lon.length = lat.length → alt.length = lat.length →
    ∀ (i : Nat) (q : LLA), (zipLla lat lon alt)[i]? = some q ↔
      lat[i]? = some q.lat ∧ lon[i]? = some q.lon ∧ alt[i]? = some q.alt := by
  intro lat
  induction lat with
  | nil => intro lon alt h1 h2 i q; simp [zipLla]
  | cons a as ih =>
    intro lon alt h1 h2 i q
    cases lon with
    | nil => simp at h1
    | cons b bs =>
      cases alt with
      | nil => simp at h2
      | cons c cs =>
        cases i with
        | zero =>
          simp only [zipLla, List.getElem?_cons_zero, Option.some.injEq]
          constructor
          · rintro rfl; exact ⟨rfl, rfl, rfl⟩
          · rintro ⟨rfl, rfl, rfl⟩; rfl
        | succ i =>
          simp only [zipLla, List.getElem?_cons_succ]
          exact ih bs cs (by simpa using h1) (by simpa using h2) i q

variable {moon : Option Moon}

/-- What a successful `XYZ_from_LatLonAlt` returns, point by point. -/
theorem xyz_points {frame : Frame} {ell : Option String} {lat lon alt : List ℝ} {xyz : List V3}
    (h : xyzFromLatLonAlt moon frame ell lat lon alt = .ok xyz) :
    ∃ e : Ellipsoid, bodyOf moon frame ell = .ok e ∧
      lon.length = lat.length ∧ alt.length = lat.length ∧
      xyz = (zipLla lat lon alt).map (xyzFromLla1 e) := by
  unfold xyzFromLatLonAlt at h
  split_ifs at h with h1 h2 h3
  cases hb : bodyOf moon frame ell with
  | error e => rw [hb] at h; simp [Except.map] at h
  | ok e =>
    rw [hb] at h
    simp only [Except.map, Except.ok.injEq] at h
    exact ⟨e, rfl, not_not.1 h2, not_not.1 h3, h.symm⟩

/-- What a successful `LatLonAlt_from_XYZ` returns, and when it refuses for the radius. -/
theorem lla_points {frame : Frame} {ell : Option String} {check : Bool} {xyz : List V3}
    {lla : List LLA} (h : latLonAltFromXYZ moon frame ell check xyz = .ok lla) :
    (∃ e : Ellipsoid, bodyOf moon frame ell = .ok e ∧ lla = xyz.map (llaFromXyz1 e)) ∧
    (check = true → ∀ p ∈ xyz,
      (radiusRange frame).1 ≤ norm p ∧ norm p ≤ (radiusRange frame).2) := by
  unfold latLonAltFromXYZ at h
  split_ifs at h with h1 h2 h3
  cases hb : bodyOf moon frame ell with
  | error e => rw [hb] at h; simp [Except.map] at h
  | ok e =>
    rw [hb] at h
    simp only [Except.map, Except.ok.injEq] at h
    refine ⟨⟨e, rfl, h.symm⟩, fun hc => ?_⟩
    by_contra hcon
    exact h3 ⟨hc, hcon⟩

/-- **C67.** Whole arrays on Earth: what comes back from `LatLonAlt_from_XYZ` after
`XYZ_from_LatLonAlt`, with or without the check of the radius. -/
theorem earth_arrays {check : Bool} {lat lon alt : List ℝ} {xyz : List V3} {lla : List LLA}
    (h : xyzFromLatLonAlt moon .itrs none lat lon alt = .ok xyz)
    (h' : latLonAltFromXYZ moon .itrs none check xyz = .ok lla)
    (i : Nat) (q : LLA) (h1 : lat[i]? = some q.lat) (h2 : lon[i]? = some q.lon)
    (h3 : alt[i]? = some q.alt) (r1 : -(Real.pi / 2) < q.lat) (r2 : q.lat < Real.pi / 2)
    (r3 : -Real.pi < q.lon) (r4 : q.lon ≤ Real.pi) (r5 : |q.alt| ≤ 40000) :
    ∃ q' : LLA, lla[i]? = some q' ∧ q'.lon = q.lon ∧ |q'.lat - q.lat| ≤ 2e-11 ∧
      |q'.alt - q.alt| ≤ 1e-4 := by
  obtain ⟨e, he, l1, l2, rfl⟩ := xyz_points h
  obtain ⟨⟨e', he', rfl⟩, -⟩ := lla_points h'
  have e1 : e = earth := by simpa [bodyOf] using he.symm
  have e2 : e' = earth := by simpa [bodyOf] using he'.symm
  subst e1; subst e2
  obtain ⟨a, b, c⟩ := earth_roundtrip q r1 r2 r3 r4 r5
  refine ⟨llaFromXyz1 earth (xyzFromLla1 earth q), ?_, a, b, c⟩
  rw [List.getElem?_map, List.getElem?_map, (zipLla_get lat lon alt l1 l2 i q).2 ⟨h1, h2, h3⟩]
  rfl

/-! ## From positions to angles and back -/

/-- **C67.** Converting a position to angles and back restores its first two coordinates exactly,
unless the returned latitude is a pole. -/
theorem xy_restored {e : Ellipsoid} (p : V3)
    (hl : Real.cos (llaFromXyz1 e p).lat ≠ 0) :
    (xyzFromLla1 e (llaFromXyz1 e p)).x = p.x ∧ (xyzFromLla1 e (llaFromXyz1 e p)).y = p.y := by
  have halt : curv e (llaFromXyz1 e p).lat + (llaFromXyz1 e p).alt
      = Real.sqrt (p.x ^ 2 + p.y ^ 2) / Real.cos (llaFromXyz1 e p).lat := by
    have : (llaFromXyz1 e p).alt = Real.sqrt (p.x ^ 2 + p.y ^ 2)
        / Real.cos (llaFromXyz1 e p).lat - curv e (llaFromXyz1 e p).lat := rfl
    rw [this]; ring
  have hlon : (llaFromXyz1 e p).lon = atan2 p.y p.x := rfl
  rw [xyzFromLla1_eq]
  simp only
  rw [halt, div_mul_cancel₀ _ hl, hlon, sin_atan2]
  by_cases h0 : p.x ^ 2 + p.y ^ 2 = 0
  · have hx : p.x = 0 := by nlinarith [sq_nonneg p.x, sq_nonneg p.y]
    have hy : p.y = 0 := by nlinarith [sq_nonneg p.x, sq_nonneg p.y]
    rw [hx, hy]; simp
  · have hpos : 0 < p.x ^ 2 + p.y ^ 2 :=
      lt_of_le_of_ne (by positivity) (Ne.symm h0)
    have hs := (Real.sqrt_pos.2 hpos).ne'
    rw [cos_atan2 hpos]
    constructor <;> field_simp

/-- **C67 (counterexample).** At the exact pole the returned altitude is wrong by the whole
radius of the body: a point on the surface is reported as thousands of kilometres deep. -/
theorem pole_counterexample {e : Ellipsoid} (he : e.Ok) :
    OnSurface e ⟨0, 0, e.gpsB⟩ ∧ (llaFromXyz1 e ⟨0, 0, e.gpsB⟩).lat = Real.pi / 2 ∧
    (llaFromXyz1 e ⟨0, 0, e.gpsB⟩).alt = -(e.gpsA ^ 2 / e.gpsB) := by
  have hb := he.1
  have ha : 0 < e.gpsA := lt_of_lt_of_le he.1 he.2
  obtain ⟨hβ0, hβ1⟩ := bDivA2_pos he
  have hup : ∀ y : ℝ, 0 < y → atan2 y 0 = Real.pi / 2 := by
    intro y hy
    have := atan2_polar (θ := Real.pi / 2) hy (by linarith [Real.pi_pos]) (by linarith [Real.pi_pos])
    simpa using this
  have hθ : atan2 (e.gpsB * e.gpsA) (Real.sqrt ((0:ℝ) ^ 2 + 0 ^ 2) * e.gpsB) = Real.pi / 2 := by
    simp only [ne_eq, OfNat.ofNat_ne_zero, not_false_eq_true, zero_pow, add_zero,
      Real.sqrt_zero, zero_mul]
    exact hup _ (by positivity)
  have hep : 0 ≤ e.ePrimeSquared := by
    unfold Ellipsoid.ePrimeSquared
    have := one_le_inv₀ hβ0 |>.2 hβ1
    linarith
  have hlat : (llaFromXyz1 e ⟨0, 0, e.gpsB⟩).lat = Real.pi / 2 := by
    simp only [llaFromXyz1, hθ]
    simp only [Real.sin_pi_div_two, Real.cos_pi_div_two, ne_eq, OfNat.ofNat_ne_zero,
      not_false_eq_true, zero_pow, add_zero, Real.sqrt_zero, mul_zero, sub_zero]
    exact hup _ (by positivity)
  refine ⟨?_, hlat, ?_⟩
  · simp only [OnSurface]; field_simp; ring
  · have : (llaFromXyz1 e ⟨0, 0, e.gpsB⟩).alt = Real.sqrt ((0:ℝ) ^ 2 + 0 ^ 2)
        / Real.cos (llaFromXyz1 e ⟨0, 0, e.gpsB⟩).lat
        - curv e (llaFromXyz1 e ⟨0, 0, e.gpsB⟩).lat := rfl
    rw [this, hlat, curv, rad_eq]
    simp only [Real.sin_pi_div_two, Real.cos_pi_div_two, ne_eq, OfNat.ofNat_ne_zero,
      not_false_eq_true, zero_pow, add_zero, zero_add, one_pow, mul_one, Real.sqrt_zero, zero_div,
      zero_sub, Ellipsoid.bDivA2]
    rw [Real.sqrt_sq (by positivity)]
    field_simp

/-- Off the surface, off the equator and off the poles of a flattened body, the latitude never
comes back exactly. -/
theorem latitude_inexact {e : Ellipsoid} (he : e.Ok) (hfl : e.gpsB < e.gpsA)
    (q : LLA) (h1 : -(Real.pi / 2) < q.lat) (h2 : q.lat < Real.pi / 2) (h0 : q.lat ≠ 0)
    (halt : q.alt ≠ 0) (hk : 0 < e.bDivA2 * curv e q.lat + q.alt)
    (hP : 0 < pOf e q.lat q.alt) :
    (llaFromXyz1 e (xyzFromLla1 e q)).lat ≠ q.lat := by
  have ha : 0 < e.gpsA := lt_of_lt_of_le he.1 he.2
  have hc := cos_pos' h1 h2
  obtain ⟨hβ0, hβ1⟩ := bDivA2_pos he
  have hNp := curv_pos he q.lat
  have hN : 0 < curv e q.lat + q.alt := by nlinarith
  have hs : Real.sin q.lat ≠ 0 := by
    intro h
    exact h0 ((Real.sin_eq_zero_iff_of_lt_of_lt (by linarith [Real.pi_pos])
      (by linarith [Real.pi_pos])).1 h)
  have hk0 : 0 < ratio e := div_pos he.1 ha
  have hk1 : ratio e < 1 := (div_lt_one ha).2 hfl
  have hβ : e.bDivA2 = ratio e ^ 2 := rfl
  have he2 : 0 < e.eSquared := by
    have : e.eSquared = 1 - ratio e ^ 2 := rfl
    rw [this]; nlinarith
  have htp : 0 < tOf e q.lat q.alt := div_pos hk (by positivity)
  have ht1 : tOf e q.lat q.alt ≠ 1 := by
    intro h
    rw [tOf, div_eq_one_iff_eq (by positivity)] at h
    have : q.alt * (1 - e.bDivA2) = 0 := by linarith
    rcases mul_eq_zero.1 this with h | h
    · exact halt h
    · have : e.eSquared = 1 - e.bDivA2 := rfl
      linarith
  have hw := w_pos (e := e) (lat := q.lat) (alt := q.alt) hc
  have hw2 : wOf e q.lat q.alt ^ 2
      = Real.cos q.lat ^ 2 + (ratio e * Real.sin q.lat) ^ 2 * tOf e q.lat q.alt ^ 2 := by
    rw [wOf, Real.sq_sqrt (by positivity)]; ring
  have hr := root_sq (e := e) q.lat
  have hrp : 0 < Real.sqrt (Real.cos q.lat ^ 2 + (ratio e * Real.sin q.lat) ^ 2) :=
    Real.sqrt_pos.2 (by positivity)
  have hv : 0 < (ratio e * Real.sin q.lat) ^ 2 := by positivity
  have hgap := gap_eq (u := Real.cos q.lat ^ 2) (v := (ratio e * Real.sin q.lat) ^ 2) hw hrp hw2 hr
    (by positivity)
  have hd := z_sub_p (e := e) q.lat q.alt
  rw [hgap] at hd
  have hd2 : 0 < (tOf e q.lat q.alt - 1) ^ 2 := by
    have : tOf e q.lat q.alt - 1 ≠ 0 := sub_ne_zero.2 ht1
    positivity
  have hpos : 0 < zOf e q.lat q.alt - pOf e q.lat q.alt := by rw [hd]; positivity
  have hZ : zOf e q.lat q.alt = (1 + (zOf e q.lat q.alt - pOf e q.lat q.alt)
      / pOf e q.lat q.alt) * pOf e q.lat q.alt := by field_simp; ring
  have hη := div_pos hpos hP
  generalize (zOf e q.lat q.alt - pOf e q.lat q.alt) / pOf e q.lat q.alt = η at *
  obtain ⟨-, -, ls, lc⟩ := lat_trig he q hc hN hP hZ
  intro heq
  rw [heq] at ls lc
  obtain ⟨r1, -⟩ := rho_bounds (lat := q.lat) hη.le
  have hρ : 0 < rhoOf q.lat η := by linarith
  rw [eq_div_iff hρ.ne'] at ls lc
  have h3 : rhoOf q.lat η = 1 := by
    have := mul_left_cancel₀ hc.ne' (lc.trans (mul_one _).symm)
    exact this
  rw [h3, mul_one] at ls
  have : η * Real.sin q.lat = 0 := by linarith
  rcases mul_eq_zero.1 this with h | h
  · linarith
  · exact hs h

/-- **C67 (counterexample to exactness).** On Earth the latitude never comes back exactly from a
point off the surface, off the equator and off the poles. -/
theorem latitude_inexact_counterexample (q : LLA) (h1 : -(Real.pi / 2) < q.lat)
    (h2 : q.lat < Real.pi / 2) (h0 : q.lat ≠ 0) (halt : q.alt ≠ 0) (h5 : |q.alt| ≤ 40000) :
    (llaFromXyz1 earth (xyzFromLla1 earth q)).lat ≠ q.lat := by
  obtain ⟨n0, n1⟩ := earth_curv q.lat
  obtain ⟨a0, a1⟩ := abs_le.1 h5
  obtain ⟨b0, b1⟩ := earth_beta
  refine latitude_inexact earth_ok (by unfold earth; norm_num) q h1 h2 h0 halt ?_
    (earth_eta h1 h2 h5).1
  have : (0.9933 : ℝ) * 6378137 ≤ earth.bDivA2 * curv earth q.lat :=
    mul_le_mul b0.le n0 (by norm_num) (by linarith)
  linarith

/-! ## Turning the Earth -/

theorem rotZ_neg (a : ℝ) (p : V3) : rotZ a (rotZ (-1 * a) p) = p := by
  have h := Real.sin_sq_add_cos_sq a
  simp only [rotZ, neg_mul, one_mul, Real.cos_neg, Real.sin_neg]
  ext
  · simp only; linear_combination p.x * h
  · simp only; linear_combination p.y * h
  · simp only; ring

theorem rotZ_neg' (a : ℝ) (p : V3) : rotZ (-1 * a) (rotZ a p) = p := by
  have := rotZ_neg (-1 * a) p
  simpa using this

/-- **C66.** The rotated frame and back, both ways. -/
theorem rot_and_back (xyz : List V3) (longitude : ℝ) :
    ecefFromRotEcef (rotEcefFromEcef xyz longitude) longitude = xyz ∧
    rotEcefFromEcef (ecefFromRotEcef xyz longitude) longitude = xyz := by
  simp only [ecefFromRotEcef, rotEcefFromEcef, List.map_map]
  constructor
  · conv_rhs => rw [← List.map_id xyz]
    exact List.map_congr_left fun p _ => by simp [rotZ_neg, -neg_mul]
  · conv_rhs => rw [← List.map_id xyz]
    exact List.map_congr_left fun p _ => by simp [rotZ_neg', -neg_mul]

/-- **C66.** The rotated frame has its first axis in the meridian of the given longitude: it
lowers the longitude of every point by that much and keeps latitude and altitude. -/
theorem rot_longitude (e : Ellipsoid) (qs : List LLA) (longitude : ℝ) :
    rotEcefFromEcef (qs.map (xyzFromLla1 e)) longitude
      = qs.map fun q => xyzFromLla1 e ⟨q.lat, q.lon - longitude, q.alt⟩ := by
  simp only [rotEcefFromEcef, List.map_map]
  refine List.map_congr_left fun q _ => ?_
  simp only [Function.comp, rotZ, xyzFromLla1_eq, Real.cos_sub, Real.sin_sub, neg_mul, one_mul,
    Real.cos_neg, Real.sin_neg]
  ext <;> simp only <;> ring

end Verif.Coord
