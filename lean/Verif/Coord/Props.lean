import Verif.Coord.Spec
import Mathlib.Analysis.SpecialFunctions.Trigonometric.Deriv
import Mathlib.Tactic.LinearCombination

/-!
# Local (east, north, up) and Earth-centred coordinates
-/

namespace Verif.Coord

/-! ## One point -/

theorem ecef_enu1 (e : Ellipsoid) (c : LLA) (p : V3) :
    ecefFromEnu1 e c (enuFromEcef1 e c p) = p := by
  have h1 := Real.sin_sq_add_cos_sq c.lat
  have h2 := Real.sin_sq_add_cos_sq c.lon
  simp only [ecefFromEnu1, enuFromEcef1]
  generalize xyzFromLla1 e c = o
  generalize Real.sin c.lat = s at *
  generalize Real.cos c.lat = k at *
  generalize Real.sin c.lon = t at *
  generalize Real.cos c.lon = m at *
  ext
  · simp only
    linear_combination (m ^ 2 * (p.x - o.x) + m * t * (p.y - o.y)) * h1 + (p.x - o.x) * h2
  · simp only
    linear_combination (m * t * (p.x - o.x) + t ^ 2 * (p.y - o.y)) * h1 + (p.y - o.y) * h2
  · simp only
    linear_combination (p.z - o.z) * h1

theorem enu_ecef1 (e : Ellipsoid) (c : LLA) (q : V3) :
    enuFromEcef1 e c (ecefFromEnu1 e c q) = q := by
  have h1 := Real.sin_sq_add_cos_sq c.lat
  have h2 := Real.sin_sq_add_cos_sq c.lon
  simp only [ecefFromEnu1, enuFromEcef1]
  generalize xyzFromLla1 e c = o
  generalize Real.sin c.lat = s at *
  generalize Real.cos c.lat = k at *
  generalize Real.sin c.lon = t at *
  generalize Real.cos c.lon = m at *
  ext
  · simp only
    linear_combination q.x * h2
  · simp only
    linear_combination (s ^ 2 * q.y - s * k * q.z) * h2 + q.y * h1
  · simp only
    linear_combination (k ^ 2 * q.z - s * k * q.y) * h2 + q.z * h1

theorem enu1_dist (e : Ellipsoid) (c : LLA) (p q : V3) :
    distSq (enuFromEcef1 e c p) (enuFromEcef1 e c q) = distSq p q := by
  have h1 := Real.sin_sq_add_cos_sq c.lat
  have h2 := Real.sin_sq_add_cos_sq c.lon
  simp only [distSq, enuFromEcef1]
  generalize Real.sin c.lat = s at *
  generalize Real.cos c.lat = k at *
  generalize Real.sin c.lon = t at *
  generalize Real.cos c.lon = m at *
  linear_combination
    ((p.z - q.z) ^ 2 + (m * (p.x - q.x) + t * (p.y - q.y)) ^ 2) * h1
    + ((p.x - q.x) ^ 2 + (p.y - q.y) ^ 2) * h2

/-! ## The functions a user calls -/

variable {moon : Option Moon} {frame : Frame} {ell : Option String} {lat lon alt : Option ℝ}

/-- What a successful call of `ENU_from_ECEF` means. -/
theorem enuFromEcef_ok {xyz enu : List V3}
    (h : enuFromEcef moon frame ell lat lon alt xyz = .ok enu) :
    ∃ (e : Ellipsoid) (c : LLA), centreOf lat lon alt = .ok c ∧
      ¬ (frame = .mcmf ∧ moon.isNone) ∧ frame ≠ .other ∧
      (∀ p ∈ xyz, (radiusRange frame).1 < norm p ∧ norm p < (radiusRange frame).2) ∧
      bodyOf moon frame ell = .ok e ∧ enu = xyz.map (enuFromEcef1 e c) := by
  unfold enuFromEcef at h
  split at h
  · simp at h
  · rename_i c hc
    split_ifs at h with h1 h2 h3
    cases hb : bodyOf moon frame ell with
    | error e => rw [hb] at h; simp [Except.map] at h
    | ok e =>
      rw [hb] at h
      simp only [Except.map, Except.ok.injEq] at h
      push Not at h3
      exact ⟨e, c, hc, h1, h2, fun p hp => ⟨h3.1 p hp, h3.2 p hp⟩, rfl, h.symm⟩

theorem enuFromEcef_of {xyz : List V3} {e : Ellipsoid} {c : LLA}
    (hc : centreOf lat lon alt = .ok c) (h1 : ¬ (frame = .mcmf ∧ moon.isNone))
    (h2 : frame ≠ .other)
    (h3 : ∀ p ∈ xyz, (radiusRange frame).1 < norm p ∧ norm p < (radiusRange frame).2)
    (hb : bodyOf moon frame ell = .ok e) :
    enuFromEcef moon frame ell lat lon alt xyz = .ok (xyz.map (enuFromEcef1 e c)) := by
  have h3' : ¬ ((∃ p ∈ xyz, norm p ≤ (radiusRange frame).1) ∨
        ∃ p ∈ xyz, norm p ≥ (radiusRange frame).2) := by
    push Not
    exact ⟨fun p hp => (h3 p hp).1, fun p hp => (h3 p hp).2⟩
  unfold enuFromEcef
  rw [hc]
  simp only
  rw [if_neg h1, if_neg h2, if_neg h3', hb]
  rfl

/-- What a successful call of `ECEF_from_ENU` means. -/
theorem ecefFromEnu_iff {xyz enu : List V3} :
    ecefFromEnu moon frame ell lat lon alt enu = .ok xyz ↔
    ∃ (e : Ellipsoid) (c : LLA), centreOf lat lon alt = .ok c ∧
      ¬ (frame = .mcmf ∧ moon.isNone) ∧ frame ≠ .other ∧
      bodyOf moon frame ell = .ok e ∧ xyz = enu.map (ecefFromEnu1 e c) := by
  constructor
  · intro h
    unfold ecefFromEnu at h
    split at h
    · simp at h
    · rename_i c hc
      split_ifs at h with h1 h2
      cases hb : bodyOf moon frame ell with
      | error e => rw [hb] at h; simp [Except.map] at h
      | ok e =>
        rw [hb] at h
        simp only [Except.map, Except.ok.injEq] at h
        exact ⟨e, c, hc, h1, h2, rfl, h.symm⟩
  · rintro ⟨e, c, hc, h1, h2, hb, rfl⟩
    unfold ecefFromEnu
    rw [hc]
    simp only
    rw [if_neg h1, if_neg h2, hb]
    rfl

/-- **C66.** Going to local coordinates and back gives the points that went in. -/
theorem to_enu_and_back {xyz enu : List V3}
    (h : enuFromEcef moon frame ell lat lon alt xyz = .ok enu) :
    ecefFromEnu moon frame ell lat lon alt enu = .ok xyz := by
  obtain ⟨e, c, hc, h1, h2, -, hb, rfl⟩ := enuFromEcef_ok h
  refine ecefFromEnu_iff.2 ⟨e, c, hc, h1, h2, hb, ?_⟩
  rw [List.map_map]
  conv_lhs => rw [← List.map_id xyz]
  refine List.map_congr_left fun p _ => ?_
  simp [ecef_enu1]

/-- **C66.** Going from local coordinates to Earth-centred ones and back gives the points that
went in; the way back is refused exactly when a point is not close to the surface. -/
theorem from_enu_and_back {xyz enu : List V3}
    (h : ecefFromEnu moon frame ell lat lon alt enu = .ok xyz) :
    ((∀ p ∈ xyz, (radiusRange frame).1 < norm p ∧ norm p < (radiusRange frame).2) →
      enuFromEcef moon frame ell lat lon alt xyz = .ok enu) ∧
    ((∃ p ∈ xyz, ¬ ((radiusRange frame).1 < norm p ∧ norm p < (radiusRange frame).2)) →
      enuFromEcef moon frame ell lat lon alt xyz = .error .badRadius) := by
  obtain ⟨e, c, hc, h1, h2, hb, rfl⟩ := ecefFromEnu_iff.1 h
  refine ⟨fun h3 => ?_, fun h3 => ?_⟩
  · rw [enuFromEcef_of hc h1 h2 h3 hb, List.map_map]
    congr 1
    conv_rhs => rw [← List.map_id enu]
    refine List.map_congr_left fun p _ => ?_
    simp [enu_ecef1]
  · have h3' : ((∃ p ∈ enu.map (ecefFromEnu1 e c), norm p ≤ (radiusRange frame).1) ∨
        ∃ p ∈ enu.map (ecefFromEnu1 e c), norm p ≥ (radiusRange frame).2) := by
      obtain ⟨p, hp, h3⟩ := h3
      rcases not_and_or.1 h3 with h4 | h4
      · exact .inl ⟨p, hp, not_lt.1 h4⟩
      · exact .inr ⟨p, hp, not_lt.1 h4⟩
    unfold enuFromEcef
    rw [hc]
    simp only
    rw [if_neg h1, if_neg h2, if_pos h3']

/-- **C66.** Local coordinates keep every distance. -/
theorem enu_keeps_distance {xyz enu : List V3}
    (h : enuFromEcef moon frame ell lat lon alt xyz = .ok enu) (i j : Nat) (p q p' q' : V3)
    (hp : xyz[i]? = some p) (hq : xyz[j]? = some q)
    (hp' : enu[i]? = some p') (hq' : enu[j]? = some q') : distSq p' q' = distSq p q := by
  obtain ⟨e, c, -, -, -, -, -, rfl⟩ := enuFromEcef_ok h
  rw [List.getElem?_map, hp] at hp'
  rw [List.getElem?_map, hq] at hq'
  obtain rfl := Option.some.inj hp'
  obtain rfl := Option.some.inj hq'
  exact enu1_dist e c p q

/-! ## The axes point east, north and up -/

/-- Radius of curvature used by both directions. -/
noncomputable def curv (e : Ellipsoid) (lat : ℝ) : ℝ :=
  e.gpsA / Real.sqrt (1 - e.eSquared * Real.sin lat ^ 2)

theorem bDivA2_pos {e : Ellipsoid} (he : e.Ok) : 0 < e.bDivA2 ∧ e.bDivA2 ≤ 1 := by
  obtain ⟨hb, hab⟩ := he
  have ha : 0 < e.gpsA := lt_of_lt_of_le hb hab
  unfold Ellipsoid.bDivA2
  refine ⟨by positivity, ?_⟩
  have h1 : e.gpsB / e.gpsA ≤ 1 := (div_le_one ha).2 hab
  have h0 : 0 ≤ e.gpsB / e.gpsA := by positivity
  nlinarith

theorem rad_pos {e : Ellipsoid} (he : e.Ok) (lat : ℝ) :
    0 < 1 - e.eSquared * Real.sin lat ^ 2 := by
  obtain ⟨h0, h1⟩ := bDivA2_pos he
  have h2 := Real.sin_sq_add_cos_sq lat
  unfold Ellipsoid.eSquared
  have h3 : 0 ≤ Real.cos lat ^ 2 := sq_nonneg _
  have h4 : 0 ≤ Real.sin lat ^ 2 := sq_nonneg _
  have h5 : 1 - (1 - e.bDivA2) * Real.sin lat ^ 2
      = Real.cos lat ^ 2 + e.bDivA2 * Real.sin lat ^ 2 := by linear_combination -h2
  rw [h5]
  by_cases h6 : Real.sin lat ^ 2 = 0
  · rw [h6] at h2; nlinarith
  · have : 0 < Real.sin lat ^ 2 := lt_of_le_of_ne h4 (Ne.symm h6)
    positivity

theorem curv_pos {e : Ellipsoid} (he : e.Ok) (lat : ℝ) : 0 < curv e lat :=
  div_pos (lt_of_lt_of_le he.1 he.2) (Real.sqrt_pos.2 (rad_pos he lat))

theorem xyzFromLla1_eq (e : Ellipsoid) (q : LLA) : xyzFromLla1 e q =
    ⟨(curv e q.lat + q.alt) * Real.cos q.lat * Real.cos q.lon,
     (curv e q.lat + q.alt) * Real.cos q.lat * Real.sin q.lon,
     (e.bDivA2 * curv e q.lat + q.alt) * Real.sin q.lat⟩ := rfl

/-- **C66.** In local coordinates, the point above the centre by `h` metres is `(0, 0, h)`. -/
theorem up_is_up (e : Ellipsoid) (c : LLA) (h : ℝ) :
    enuFromEcef1 e c (xyzFromLla1 e ⟨c.lat, c.lon, c.alt + h⟩) = ⟨0, 0, h⟩ := by
  have h1 := Real.sin_sq_add_cos_sq c.lat
  have h2 := Real.sin_sq_add_cos_sq c.lon
  simp only [enuFromEcef1, xyzFromLla1_eq]
  generalize Real.sin c.lat = s at *
  generalize Real.cos c.lat = k at *
  generalize Real.sin c.lon = t at *
  generalize Real.cos c.lon = m at *
  ext
  · simp only; ring
  · simp only; linear_combination (-(s * k * h)) * h2
  · simp only; linear_combination (k ^ 2 * h) * h2 + h * h1

/-- **C66.** A point that moves along a circle of latitude leaves the centre towards the first
local axis, by its distance from the rotation axis per radian. -/
theorem east_is_east (e : Ellipsoid) (c : LLA) :
    HasVelocity (fun l => enuFromEcef1 e c (xyzFromLla1 e ⟨c.lat, l, c.alt⟩))
      ⟨(curv e c.lat + c.alt) * Real.cos c.lat, 0, 0⟩ c.lon := by
  have h2 := Real.sin_sq_add_cos_sq c.lon
  have hs := Real.hasDerivAt_sin c.lon
  have hc := Real.hasDerivAt_cos c.lon
  simp only [HasVelocity, enuFromEcef1, xyzFromLla1_eq]
  have dx : HasDerivAt (fun l => (curv e c.lat + c.alt) * Real.cos c.lat * Real.cos l
      - (curv e c.lat + c.alt) * Real.cos c.lat * Real.cos c.lon)
      ((curv e c.lat + c.alt) * Real.cos c.lat * -Real.sin c.lon) c.lon :=
    (hc.const_mul _).sub_const _
  have dy : HasDerivAt (fun l => (curv e c.lat + c.alt) * Real.cos c.lat * Real.sin l
      - (curv e c.lat + c.alt) * Real.cos c.lat * Real.sin c.lon)
      ((curv e c.lat + c.alt) * Real.cos c.lat * Real.cos c.lon) c.lon :=
    (hs.const_mul _).sub_const _
  refine ⟨?_, ?_, ?_⟩
  · refine ((dx.const_mul _).add (dy.const_mul _)).congr_deriv ?_
    linear_combination ((curv e c.lat + c.alt) * Real.cos c.lat) * h2
  · refine (((dx.const_mul _).sub (dy.const_mul _)).add_const _).congr_deriv ?_
    ring
  · refine (((dx.const_mul _).add (dy.const_mul _)).add_const _).congr_deriv ?_
    ring

/-- Derivative of the radius of curvature. -/
theorem curv_deriv {e : Ellipsoid} (he : e.Ok) (lat : ℝ) :
    HasDerivAt (curv e) (curv e lat ^ 3 / e.gpsA ^ 2 * (e.eSquared * Real.sin lat
      * Real.cos lat)) lat := by
  have ha : e.gpsA ≠ 0 := (lt_of_lt_of_le he.1 he.2).ne'
  have hp := rad_pos he lat
  have hq : Real.sqrt (1 - e.eSquared * Real.sin lat ^ 2) ≠ 0 := (Real.sqrt_pos.2 hp).ne'
  have h1 : HasDerivAt (fun l => 1 - e.eSquared * Real.sin l ^ 2)
      (-(e.eSquared * (2 * Real.sin lat * Real.cos lat))) lat := by
    have := (((Real.hasDerivAt_sin lat).pow 2).const_mul e.eSquared).const_sub 1
    refine this.congr_deriv ?_
    simp
  have h2 := (h1.sqrt hp.ne').inv hq
  have h3 := h2.const_mul e.gpsA
  have h4 : HasDerivAt (curv e) _ lat := h3
  refine h4.congr_deriv ?_
  simp only [curv]
  field_simp

/-- **C66.** A point that moves along a meridian leaves the centre towards the second local
axis. -/
theorem north_is_north {e : Ellipsoid} (he : e.Ok) (c : LLA) :
    HasVelocity (fun l => enuFromEcef1 e c (xyzFromLla1 e ⟨l, c.lon, c.alt⟩))
      ⟨0, e.bDivA2 * (curv e c.lat ^ 3 / e.gpsA ^ 2) + c.alt, 0⟩ c.lat := by
  have h1 := Real.sin_sq_add_cos_sq c.lat
  have h2 := Real.sin_sq_add_cos_sq c.lon
  have hs := Real.hasDerivAt_sin c.lat
  have hc := Real.hasDerivAt_cos c.lat
  have hn := curv_deriv he c.lat
  have ha : e.gpsA ≠ 0 := (lt_of_lt_of_le he.1 he.2).ne'
  -- the square of the radius of curvature
  have hN : curv e c.lat = curv e c.lat ^ 3 / e.gpsA ^ 2
      * (1 - e.eSquared * Real.sin c.lat ^ 2) := by
    have hp := rad_pos he c.lat
    have hq : Real.sqrt (1 - e.eSquared * Real.sin c.lat ^ 2) ≠ 0 := (Real.sqrt_pos.2 hp).ne'
    have hq2 := Real.sq_sqrt hp.le
    simp only [curv]
    generalize Real.sqrt (1 - e.eSquared * Real.sin c.lat ^ 2) = r at *
    rw [← hq2]
    field_simp
  have he2 : e.eSquared = 1 - e.bDivA2 := rfl
  simp only [HasVelocity, enuFromEcef1, xyzFromLla1_eq]
  have dp : HasDerivAt (fun l => (curv e l + c.alt) * Real.cos l) _ c.lat :=
    (hn.add_const c.alt).mul hc
  have dz : HasDerivAt (fun l => (e.bDivA2 * curv e l + c.alt) * Real.sin l) _ c.lat :=
    ((hn.const_mul e.bDivA2).add_const c.alt).mul hs
  generalize hM : curv e c.lat ^ 3 / e.gpsA ^ 2 = M at *
  generalize curv e c.lat = N at *
  rw [he2] at hN dp dz
  have dx := (dp.mul_const (Real.cos c.lon)).sub_const ((N + c.alt) * Real.cos c.lat * Real.cos c.lon)
  have dy := (dp.mul_const (Real.sin c.lon)).sub_const ((N + c.alt) * Real.cos c.lat * Real.sin c.lon)
  have dz' := dz.sub_const ((e.bDivA2 * N + c.alt) * Real.sin c.lat)
  generalize Real.sin c.lat = s at *
  generalize Real.cos c.lat = k at *
  generalize Real.sin c.lon = t at *
  generalize Real.cos c.lon = m at *
  generalize e.bDivA2 = β at *
  refine ⟨?_, ?_, ?_⟩
  · refine ((dx.const_mul (-t)).add (dy.const_mul m)).congr_deriv ?_
    ring
  · refine (((dx.const_mul (-s * m)).sub (dy.const_mul (s * t))).add (dz'.const_mul k)).congr_deriv ?_
    linear_combination (-s * (M * ((1 - β) * s * k) * k + (N + c.alt) * -s)) * h2
      + (s ^ 2 + β * k ^ 2) * hN + (M * (β - (1 - β) * s ^ 2) + c.alt) * h1
  · refine (((dx.const_mul (k * m)).add (dy.const_mul (k * t))).add (dz'.const_mul s)).congr_deriv ?_
    linear_combination (k * (M * ((1 - β) * s * k) * k + (N + c.alt) * -s)) * h2
      - (1 - β) * s * k * hN + (1 - β) * M * s * k * h1

end Verif.Coord
