import Verif.MirLoc.Props
import Mathlib.Data.Rat.Defs
import Mathlib.Algebra.Order.Ring.Rat
import Mathlib.Tactic.NormNum

/-! # Where the telescope and antennas of Miriad files are: cases that meet the hypotheses -/
set_option linter.unusedSectionVars false

namespace Verif.MirLoc

/-- A world of one dimension: everything is above one place, at longitude -1. -/
def env0 : Env ℚ ℚ where
  rot _ p := p
  len p := |p|
  geo _ _ h := 6370000 + h
  lat _ := 0
  lon _ := -1
  alt p := p - 6370000
  pi := 22 / 7
  low := 6350000
  high := 6390000
  tol := 1 / 100

theorem lengths0 : Lengths env0 := fun p =>
  ⟨fun h => by simp [env0, h], fun h => by simpa [env0] using h⟩

def abs0 : List ℚ := [6370990, 0, 6371010]
def rel0 : List ℚ := [-10, 0, 10]

theorem fromEarth0 : FromEarth env0 abs0 := (absolute_iff lengths0).1 (by decide +kernel)
theorem notFromEarth0 : ¬ FromEarth env0 rel0 := fun h => absurd ((absolute_iff lengths0).2 h) (by decide +kernel)

/-- With an altitude, positions from the middle of the Earth. -/
def file0 : File ℚ ℚ := ⟨0, -1, some 1000, none, some abs0, [0, 1]⟩

def sees (g : Option (Got ℚ)) : Option (ℚ × List Nat × Option (List ℚ)) := g.map fun g => (g.loc, g.nums, g.pos)

example : sees (load env0 id file0 true) = some (6371000, [2, 0, 1], some [10, -10, 0]) := by decide +kernel
example {g q} (h : load env0 id file0 true = some g) (hq : At g 2 q) : g.loc + q = 6371010 :=
  absolute_kept lengths0 rfl fromEarth0 h (n := 2) rfl (by norm_num) hq
example {g} (h : load env0 id file0 true = some g) := antennas lengths0 (fun _ => .refl _) rfl h
example {g q} (h : load env0 id file0 true = some g) (hq : At g 1 q) : q = 0 := missing_zero lengths0 rfl h (n := 1) rfl hq
example {g} (h : load env0 id file0 true = some g) : g.loc = env0.geo 0 (-1) 1000 :=
  (location_altitude rfl h).1 (by norm_num [file0, env0])

/-- Relative positions of a known telescope. -/
def file1 : File ℚ ℚ := ⟨0, -1, none, some (1 / 100, -1, 500), some rel0, [0, 1]⟩

example : sees (load env0 id file1 true) = some (6370500, [2, 0, 1], some [10, -10, 0]) := by decide +kernel
example {g q} (h : load env0 id file1 false = some g) (hq : At g 0 q) : q = -10 :=
  relative_kept lengths0 rfl notFromEarth0 h (n := 0) rfl (by norm_num) hq
example {g} (h : load env0 id file1 true = some g) : g.loc = env0.geo (1 / 100) (-1) 500 := (location_known rfl rfl h).1 rfl

/-- An unknown telescope without an altitude: the mean height of the antennas is used ... -/
def file2 : File ℚ ℚ := ⟨0, -1, none, none, some abs0, [0, 2]⟩

theorem mean0 (lon : ℚ) : MeanIs env0 lon abs0 6371000 :=
  ⟨[6370990, 6371010], by decide +kernel, by simp, by simp, fun p hp => by simp [abs0, List.count_cons, Ne.symm hp], by
    simp [env0]; norm_num⟩

example : sees (load env0 id file2 true) = some (6371000, [0, 2], some [-10, 10]) := by decide +kernel
example {g} (h : load env0 id file2 true = some g) : g.loc = env0.geo 0 (-1) (env0.alt 6371000) :=
  location_mean_partial lengths0 rfl rfl rfl (mean0 _) (by norm_num [env0]) (by norm_num [env0, file2]) h

/-- ... but not if the same longitude is written as one between a half and a whole turn. -/
def file3 : File ℚ ℚ := { file2 with lon := -1 + 2 * (22 / 7) }

example : sees (load env0 id file3 true) = some (6370000, [0, 2], some [990, 1010]) := by decide +kernel
example {g} (h : load env0 id file3 true = some g) : g.loc = env0.geo 0 file3.lon 0 :=
  wrapped_counterexample lengths0 rfl rfl (fun _ => by norm_num [env0]) (by norm_num [env0, file3]) h

/-- The telescope is elsewhere. -/
def file4 : File ℚ ℚ := { file2 with lat := 1 }

example {g} (h : load env0 id file4 true = some g) : g.loc = env0.geo 1 (-1) 0 :=
  location_sea lengths0 rfl rfl (fun _ _ _ _ _ _ hc => absurd hc.1 (by norm_num [env0, file4])) h

example : load env0 id { file0 with seen := [0, 3] } true = none :=
  (load_error fun _ => .refl _).2 ⟨abs0, rfl, 3, by simp, by decide⟩

end Verif.MirLoc
