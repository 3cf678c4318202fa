import Verif.Coord.Api

/-!
# The hypotheses of the theorems are met
-/

namespace Verif.Coord

/-- Two antennas at the crossing of the equator and the prime meridian. -/
theorem ex_enu : enuFromEcef none .itrs none (some 0) (some 0) (some 0)
    [⟨6378137, 0, 0⟩, ⟨6378137, 100, 50⟩] = .ok [⟨0, 0, 0⟩, ⟨100, 50, 0⟩] := by
  have hc : curv earth 0 = 6378137 := by simp [curv, earth]
  rw [enuFromEcef_of (e := earth) (c := ⟨0, 0, 0⟩) rfl (by simp) (by simp) ?_ rfl]
  · simp [enuFromEcef1, xyzFromLla1_eq, hc]
  · intro p hp
    simp only [List.mem_cons, List.not_mem_nil, or_false] at hp
    rcases hp with rfl | rfl
    · constructor
      · exact Real.lt_sqrt_of_sq_lt (by norm_num [radiusRange])
      · rw [norm, Real.sqrt_lt' (by norm_num [radiusRange])]
        norm_num [radiusRange]
    · constructor
      · exact Real.lt_sqrt_of_sq_lt (by norm_num [radiusRange])
      · rw [norm, Real.sqrt_lt' (by norm_num [radiusRange])]
        norm_num [radiusRange]

example : ecefFromEnu none .itrs none (some 0) (some 0) (some 0) [⟨0, 0, 0⟩, ⟨100, 50, 0⟩]
    = .ok [⟨6378137, 0, 0⟩, ⟨6378137, 100, 50⟩] := to_enu_and_back ex_enu

example : distSq ⟨0, 0, 0⟩ ⟨100, 50, 0⟩ = distSq ⟨6378137, 0, 0⟩ ⟨6378137, 100, 50⟩ :=
  enu_keeps_distance ex_enu 0 1 _ _ _ _ rfl rfl rfl rfl

/-- A point far from the surface is refused. -/
example : enuFromEcef none .itrs none (some 0) (some 0) (some 0) [⟨6378137, 0, 0 + 6378137⟩]
    = .error .badRadius := by
  have h : ecefFromEnu none .itrs none (some 0) (some 0) (some 0) [⟨0, 6378137, 0⟩]
      = .ok [⟨6378137, 0, 0 + 6378137⟩] := by
    have hc : curv earth 0 = 6378137 := by simp [curv, earth]
    refine ecefFromEnu_iff.2 ⟨earth, ⟨0, 0, 0⟩, rfl, by simp, by simp, rfl, ?_⟩
    simp [ecefFromEnu1, xyzFromLla1_eq, hc]
  refine (from_enu_and_back h).2 ⟨_, List.mem_singleton.2 rfl, ?_⟩
  intro ⟨_, h2⟩
  rw [norm, Real.sqrt_lt' (by norm_num [radiusRange])] at h2
  norm_num [radiusRange] at h2

/-- The ranges of `earth_roundtrip` hold for a site at 30 degrees, 2 km high. -/
example : (llaFromXyz1 earth (xyzFromLla1 earth ⟨Real.pi / 6, 1, 2000⟩)).lon = 1 ∧
    |(llaFromXyz1 earth (xyzFromLla1 earth ⟨Real.pi / 6, 1, 2000⟩)).lat - Real.pi / 6| ≤ 2e-11 ∧
    |(llaFromXyz1 earth (xyzFromLla1 earth ⟨Real.pi / 6, 1, 2000⟩)).alt - 2000| ≤ 1e-4 := by
  have := Real.pi_gt_three
  exact earth_roundtrip ⟨Real.pi / 6, 1, 2000⟩ (by simp only; linarith) (by simp only; linarith)
    (by simp only; linarith) (by simp only; linarith) (by norm_num)

example : (llaFromXyz1 earth (xyzFromLla1 earth ⟨Real.pi / 6, 1, 2000⟩)).lat ≠ Real.pi / 6 := by
  have := Real.pi_gt_three
  exact latitude_inexact_counterexample ⟨Real.pi / 6, 1, 2000⟩ (by simp only; linarith)
    (by simp only; linarith) (by positivity) (by norm_num) (by norm_num)

example : xyzFromLatLonAlt none .itrs none [0] [0] [0] = .ok [⟨6378137, 0, 0⟩] := by
  have hc : curv earth 0 = 6378137 := by simp [curv, earth]
  simp [xyzFromLatLonAlt, bodyOf, Except.map, zipLla, xyzFromLla1_eq, hc]

example (moon : Moon) (h : moon.names.lookup "SPHERE" = some ⟨1737400, 1737400⟩) :
    bodyOf (some moon) .mcmf none = .ok ⟨1737400, 1737400⟩ ∧
    (⟨1737400, 1737400⟩ : Ellipsoid).Ok := by
  refine ⟨by simp [bodyOf, Moon.get, h], by norm_num [Ellipsoid.Ok]⟩

end Verif.Coord
