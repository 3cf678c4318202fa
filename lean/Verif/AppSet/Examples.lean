import Verif.AppSet.Props
import Verif.Sky.Phased
import Verif.Sky.Examples

/-! Concrete cases. -/

namespace Verif.AppSet

open Verif.Phase (Env SkyAt AngleAt Good Obj env0 rowsOf rowsOf_good uEntry sEntry)
open Verif.PhaseCat (Entry Val PointsAt)

noncomputable section

/-- A sky in which sources with a velocity are elsewhere. -/
def sky1 (e : Entry) (t _l : ℝ) : ℝ × ℝ := (if e.vrad = none then t else t + 1, 0)
def env1 : Env :=
  { env0 with
    app := fun e ts _ => .ok (ts.map fun t => (sky1 e t 0).1, ts.map fun _ => 0)
    angle := fun _ _ ts _ _ => .ok (ts.map fun t => t + 2) }

theorem sky1_at : SkyAt env1 sky1 := by
  intro e ts ls r d _ h i t l ht hl
  simp only [env1, Except.ok.injEq, Prod.mk.injEq] at h
  rw [← h.1, ← h.2, List.getElem?_map, List.getElem?_map, ht]
  exact ⟨rfl, rfl⟩

theorem angle1_at : AngleAt env1 fun _ _ t _ _ => t + 2 := by
  intro fr ep ts ra dec pa _ _ _ h i t r d ht _ _
  simp only [env1, Except.ok.injEq] at h
  rw [← h, List.getElem?_map, ht]
  rfl

def moving : Entry := { sEntry with vrad := some (.scalar 5) }

/-- Rows of three sources: unprojected, at rest, with a velocity. -/
def three : Obj := rowsOf [(0, uEntry), (1, sEntry), (2, moving)] [1, 2, 0, 1] ⟨0, 0, 1⟩ 0

theorem three_good : Good three := rowsOf_good (by decide) (by simp)

theorem three_fixed : Verif.Sky.Fixed three.time three.lst := by
  intro i j t x y _ _ h3 h4
  have a := List.mem_of_getElem? h3
  have b := List.mem_of_getElem? h4
  simp [three, rowsOf] at a b
  rw [a, b]

theorem three_runs : ∃ o', setApp env1 false three = .ok o' :=
  succeeds three_good (fun e ts ls => ⟨_, _, rfl, by simp, by simp⟩) fun fr ep ts ra dec => ⟨_, rfl, by simp⟩

theorem sky1_low : ∀ e t l, (sky1 e t l).2 ≤ Real.pi / 2 := fun _ _ _ => by
  simp only [sky1]
  positivity

/-- The source at rest is where it is, with the angle of its frame. -/
example : ∃ o', setApp env1 false three = .ok o' ∧ Verif.Phase.SourceAt o' 3 0 0 2 := by
  obtain ⟨o', h⟩ := three_runs
  refine ⟨o', h, ?_⟩
  have := rows_set_partial sky1_at angle1_at three_good three_fixed sky1_low h (i := 3) (e := sEntry) (t := 0) (l := 0)
    ⟨1, rfl, by simp [three, rowsOf]⟩ rfl rfl rfl
  rw [if_neg (by decide)] at this
  simpa [sky1, sEntry] using this

/-- The one with a velocity is not. -/
example : ∃ o', setApp env1 false three = .ok o' ∧ ∀ pa, ¬ Verif.Phase.SourceAt o' 1 1 0 pa := by
  obtain ⟨o', h⟩ := three_runs
  refine ⟨o', h, ?_⟩
  have := velocity_counterexample sky1_at angle1_at three_good three_fixed sky1_low h (i := 1) (e := moving) (t := 0) (l := 0)
    ⟨2, rfl, by simp [three, rowsOf]⟩ rfl rfl (by simp [sky1, moving])
  simpa [sky1, moving] using this

/-- Only angles: zero for the unprojected row. -/
example : ∀ o', setApp env1 true three = .ok o' → Verif.Phase.SourceAt o' 2 0 0 0 := by
  intro o' h
  have hz : ∀ k, Placed three three.ra three.dec k := by
    intro k
    refine placed_of (F := fun _ _ => (0, 0)) rfl rfl three_fixed rfl rfl (fun _ _ => by positivity) ?_
    intro i t l hi _ _
    have : i < 4 := (List.getElem?_eq_some_iff.1 hi).1
    interval_cases i <;> exact ⟨rfl, rfl⟩
  have := angles_only angle1_at three_good (fun p _ => hz p.1) h (i := 2) (e := uEntry) (t := 0) (x := 0) (y := 0)
    ⟨0, rfl, by simp [three, rowsOf]⟩ rfl rfl rfl
  rwa [if_pos (by decide)] at this

example := missing_entry (env := env1) (o := rowsOf [(0, uEntry)] [0, 7] ⟨0, 0, 1⟩ 0) (k := 7) (by simp [rowsOf]) (by simp [rowsOf])
example := fun o' (h : setApp env1 false three = .ok o') => kept h

/-- With the sky of `Verif.Sky`. -/
example {c pop junk jpl} {s : Verif.Sky.Site} {o o' : Obj} (hg : Good o) (hfix : Verif.Sky.Fixed o.time o.lst)
    (hlat : ∀ e t l, (Verif.Sky.placeOf s e t l).2 ≤ Real.pi / 2)
    (h : setApp (Verif.Sky.siteEnv c pop junk jpl s) false o = .ok o') {i : Nat} {e : Entry} {t l : ℝ}
    (hp : PointsAt o.st i e) (hv : e.vrad = none) (ht : o.time[i]? = some t) (hl : o.lst[i]? = some l) :=
  rows_set_partial Verif.Sky.site_sky Verif.Sky.site_angle hg hfix hlat h hp hv ht hl

end

end Verif.AppSet
