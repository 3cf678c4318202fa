import Verif.Coord.Earth

/-! C66: which points are taken to be on the surface of the body. -/
namespace Verif.Coord

/-- The square of the distance from the centre, by altitude: two numbers that depend on the latitude only and lie between the radii. -/
theorem norm_sq {e : Ellipsoid} (he : e.Ok) (q : LLA) :
    ∃ S R : ℝ, e.gpsB ≤ S ∧ S ≤ e.gpsA ∧ S ^ 2 ≤ R ∧ R ≤ e.gpsA ^ 2 ∧ norm (xyzFromLla1 e q) ^ 2 = R + 2 * q.alt * S + q.alt ^ 2 := by
  set N := curv e q.lat with hN
  set β := e.bDivA2 with hβ
  set s := Real.sin q.lat with hs
  set c := Real.cos q.lat with hc
  have h1 : s ^ 2 + c ^ 2 = 1 := Real.sin_sq_add_cos_sq q.lat
  have h2 := Real.sin_sq_add_cos_sq q.lon
  have ha : 0 < e.gpsA := lt_of_lt_of_le he.1 he.2
  have hcs : N ^ 2 * (c ^ 2 + β * s ^ 2) = e.gpsA ^ 2 := curv_sq he q.lat
  have hNp : 0 < N := curv_pos he q.lat
  obtain ⟨b0, b1⟩ := bDivA2_pos he
  have hba : β * e.gpsA ^ 2 = e.gpsB ^ 2 := by
    rw [hβ, Ellipsoid.bDivA2]; field_simp
  have hs0 : 0 ≤ s ^ 2 := sq_nonneg _
  have hc0 : 0 ≤ c ^ 2 := sq_nonneg _
  have hD : c ^ 2 + β * s ^ 2 ≤ 1 := by nlinarith
  have hD' : β ≤ c ^ 2 + β * s ^ 2 := by nlinarith
  have hDp : 0 < c ^ 2 + β * s ^ 2 := lt_of_lt_of_le b0 hD'
  have hS2 : (N * (c ^ 2 + β * s ^ 2)) ^ 2 = e.gpsA ^ 2 * (c ^ 2 + β * s ^ 2) := by rw [← hcs]; ring
  refine ⟨N * (c ^ 2 + β * s ^ 2), N ^ 2 * (c ^ 2 + β ^ 2 * s ^ 2), ?_, ?_, ?_, ?_, ?_⟩
  · apply (pow_le_pow_iff_left₀ he.1.le (by positivity) two_ne_zero).1
    rw [hS2, ← hba]
    nlinarith [sq_nonneg e.gpsA]
  · apply (pow_le_pow_iff_left₀ (by positivity) ha.le two_ne_zero).1
    rw [hS2]
    nlinarith [sq_nonneg e.gpsA]
  · have : (c ^ 2 + β * s ^ 2) ^ 2 ≤ c ^ 2 + β ^ 2 * s ^ 2 := by
      have : c ^ 2 + β ^ 2 * s ^ 2 - (c ^ 2 + β * s ^ 2) ^ 2 = c ^ 2 * s ^ 2 * (1 - β) ^ 2 := by
        linear_combination (-(c ^ 2) - β ^ 2 * s ^ 2) * h1
      nlinarith [mul_nonneg (mul_nonneg hc0 hs0) (sq_nonneg (1 - β))]
    rw [mul_pow]
    exact mul_le_mul_of_nonneg_left this (sq_nonneg _)
  · rw [← hcs]
    apply mul_le_mul_of_nonneg_left _ (sq_nonneg _)
    nlinarith [mul_nonneg (mul_nonneg b0.le hs0) (sub_nonneg.2 b1)]
  · unfold norm
    rw [Real.sq_sqrt (by positivity), xyzFromLla1_eq]
    simp only
    rw [← hN, ← hβ, ← hs, ← hc]
    linear_combination ((N + q.alt) ^ 2 * c ^ 2) * h2 + q.alt ^ 2 * h1

/-- The distance from the centre lies between the radii of the ellipsoid, moved by the altitude. -/
theorem norm_bounds {e : Ellipsoid} (he : e.Ok) (q : LLA) (h : 0 < e.gpsB + q.alt) :
    e.gpsB + q.alt ≤ norm (xyzFromLla1 e q) ∧ norm (xyzFromLla1 e q) ≤ e.gpsA + max q.alt 0 := by
  obtain ⟨S, R, s1, s2, r1, r2, hn⟩ := norm_sq he q
  have ha : 0 < e.gpsA := lt_of_lt_of_le he.1 he.2
  have hnn : 0 ≤ norm (xyzFromLla1 e q) := Real.sqrt_nonneg _
  have hb := he.1
  constructor
  · apply (pow_le_pow_iff_left₀ h.le hnn two_ne_zero).1
    rw [hn]
    nlinarith
  · apply (pow_le_pow_iff_left₀ hnn (by positivity) two_ne_zero).1
    rw [hn]
    rcases le_total 0 q.alt with h0 | h0
    · rw [max_eq_left h0]
      nlinarith
    · rw [max_eq_right h0]
      nlinarith

/-- **C66.** On Earth every point from 6.7 km below to 11.8 km above the ellipsoid is accepted, at any latitude and longitude. -/
theorem earth_range (qs : List LLA) (hq : ∀ q ∈ qs, -6750 ≤ q.alt ∧ q.alt ≤ 11860) (moon : Option Moon) (ell : Option String) (lat lon alt : ℝ) (check : Bool) :
    (∃ enu, enuFromEcef moon .itrs ell (some lat) (some lon) (some alt) (qs.map (xyzFromLla1 earth)) = .ok enu) ∧
    ∃ lla, latLonAltFromXYZ moon .itrs ell check (qs.map (xyzFromLla1 earth)) = .ok lla := by
  have hb : ∀ p ∈ qs.map (xyzFromLla1 earth), (radiusRange .itrs).1 < norm p ∧ norm p < (radiusRange .itrs).2 := by
    intro p hp
    obtain ⟨q, hq', rfl⟩ := List.mem_map.1 hp
    obtain ⟨h1, h2⟩ := hq q hq'
    have ea : earth.gpsA = 6378137 := rfl
    have eb : earth.gpsB = 6356752.31424518 := rfl
    obtain ⟨h3, h4⟩ := norm_bounds earth_ok q (by rw [eb]; norm_num; linarith)
    rw [eb] at h3
    rw [ea] at h4
    have h5 : max q.alt 0 ≤ 11860 := max_le h2 (by norm_num)
    simp only [radiusRange]
    constructor
    · norm_num at h3 ⊢; linarith
    · norm_num at h4 ⊢; linarith
  refine ⟨⟨_, enuFromEcef_of rfl (by simp) (by simp) hb rfl⟩, ?_⟩
  unfold latLonAltFromXYZ
  rw [if_neg (by simp), if_neg (by simp), if_neg]
  · exact ⟨_, rfl⟩
  · rintro ⟨-, h⟩
    exact h (fun p hp => ⟨(hb p hp).1.le, (hb p hp).2.le⟩)

/-- **C66.** A point more than 29 km below or more than 34 km above the ellipsoid is refused. -/
theorem earth_range_refused (qs : List LLA) (q : LLA) (hm : q ∈ qs) (hq : -6000000 ≤ q.alt ∧ q.alt ≤ -29000 ∨ 34000 ≤ q.alt) (moon : Option Moon)
    (ell : Option String) (lat lon alt : ℝ) :
    enuFromEcef moon .itrs ell (some lat) (some lon) (some alt) (qs.map (xyzFromLla1 earth)) = .error .badRadius ∧
    latLonAltFromXYZ moon .itrs ell true (qs.map (xyzFromLla1 earth)) = .error .badRadius := by
  have ea : earth.gpsA = 6378137 := rfl
  have eb : earth.gpsB = 6356752.31424518 := rfl
  have hmem : xyzFromLla1 earth q ∈ qs.map (xyzFromLla1 earth) := List.mem_map.2 ⟨q, hm, rfl⟩
  have hb : norm (xyzFromLla1 earth q) < (radiusRange .itrs).1 ∨ (radiusRange .itrs).2 < norm (xyzFromLla1 earth q) := by
    simp only [radiusRange]
    rcases hq with ⟨h1, h2⟩ | h2
    · left
      obtain ⟨S, R, s1, s2, r1, r2, hn⟩ := norm_sq earth_ok q
      rw [ea] at s2 r2
      rw [eb] at s1
      have hnn : 0 ≤ norm (xyzFromLla1 earth q) := Real.sqrt_nonneg _
      have h6 : S ≥ 6356752 := by norm_num at s1 ⊢; linarith
      apply (pow_lt_pow_iff_left₀ hnn (by norm_num) two_ne_zero).1
      rw [hn]
      norm_num
      nlinarith
    · right
      obtain ⟨h3, -⟩ := norm_bounds earth_ok q (by rw [eb]; norm_num; linarith)
      rw [eb] at h3
      norm_num at h3 ⊢
      linarith
  constructor
  · unfold enuFromEcef
    simp only [centreOf]
    rw [if_neg (by simp), if_neg (by simp), if_pos]
    rcases hb with hb | hb
    · exact .inl ⟨_, hmem, hb.le⟩
    · exact .inr ⟨_, hmem, hb.le⟩
  · unfold latLonAltFromXYZ
    rw [if_neg (by simp), if_neg (by simp), if_pos]
    refine ⟨rfl, fun h => ?_⟩
    obtain ⟨h1, h2⟩ := h _ hmem
    rcases hb with hb | hb
    · exact absurd hb (not_lt.2 h1)
    · exact absurd hb (not_lt.2 h2)

/-- **C66.** On a Moon taken to be a sphere of 1737.4 km every point from 27 km below to 12 km above it is accepted. -/
theorem moon_range (moon : Moon) (h : moon.names.lookup "SPHERE" = some ⟨1737400, 1737400⟩) (qs : List LLA)
    (hq : ∀ q ∈ qs, -27000 ≤ q.alt ∧ q.alt ≤ 12000) (lat lon alt : ℝ) :
    ∃ enu, enuFromEcef (some moon) .mcmf none (some lat) (some lon) (some alt) (qs.map (xyzFromLla1 ⟨1737400, 1737400⟩)) = .ok enu := by
  have ok : Ellipsoid.Ok ⟨1737400, 1737400⟩ := by unfold Ellipsoid.Ok; constructor <;> norm_num
  have hb : ∀ p ∈ qs.map (xyzFromLla1 ⟨1737400, 1737400⟩), (radiusRange .mcmf).1 < norm p ∧ norm p < (radiusRange .mcmf).2 := by
    intro p hp
    obtain ⟨q, hq', rfl⟩ := List.mem_map.1 hp
    obtain ⟨h1, h2⟩ := hq q hq'
    obtain ⟨h3, h4⟩ := norm_bounds ok q (by simp only; linarith)
    have h5 : max q.alt 0 ≤ 12000 := max_le h2 (by norm_num)
    simp only [radiusRange] at *
    constructor
    · norm_num; linarith
    · norm_num; linarith
  exact ⟨_, enuFromEcef_of (e := ⟨1737400, 1737400⟩) rfl (by simp) (by simp) hb (by simp [bodyOf, Moon.get, h])⟩

/-- The top of a mountain and the bottom of the Dead Sea. -/
example : ∃ enu, enuFromEcef none .itrs none (some 0) (some 0) (some 0) ([⟨1 / 2, 3 / 2, 8848⟩, ⟨1 / 2, 1 / 2, -430⟩].map (xyzFromLla1 earth)) = .ok enu :=
  (earth_range [⟨1 / 2, 3 / 2, 8848⟩, ⟨1 / 2, 1 / 2, -430⟩] (by
    intro q hq
    simp only [List.mem_cons, List.not_mem_nil, or_false] at hq
    rcases hq with rfl | rfl <;> norm_num) none none 0 0 0 true).1

end Verif.Coord
