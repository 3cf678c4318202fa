import Mathlib.Tactic.IntervalCases
import Verif.Phase.Counter

/-!
# Concrete cases that meet the hypotheses
-/

namespace Verif.Phase

open Verif.Coord (V3)
open Verif.Phasing (pick calcUvw proj diff StandsAt)
open Verif.PhaseCat (Entry St Cat PointsAt unprojected sidereal Matches genEntry ephem)

noncomputable section

theorem sky0 : SkyAt env0 fun _ _ _ => (0, 0) := by
  intro e ts ls r d _ h i t l ht hl
  simp only [env0, Except.ok.injEq, Prod.mk.injEq] at h
  rw [← h.1, ← h.2, List.getElem?_map, ht]
  exact ⟨rfl, rfl⟩

theorem angle0 : AngleAt env0 fun _ _ _ _ _ => 0 := by
  intro fr ep ts ra dec pa _ _ _ h i t r d ht _ _
  simp only [env0, Except.ok.injEq] at h
  rw [← h, List.getElem?_map, ht]
  rfl

/-- Two unprojected rows. -/
def two : Obj := rowsOf [(0, uEntry)] [0, 0] ⟨0, 0, 1⟩ 0

theorem two_good : Good two := rowsOf_good (by decide) (by simp)

theorem two_unproj (i : Nat) (hi : i < two.uvw.length) : Unproj two i := by
  have hi' : i < 2 := hi
  refine unproj_of (k := 0) (e := uEntry) ?_ (by simp) rfl
  interval_cases i <;> rfl

theorem two_overhead : Overhead two := by
  intro i hu t ht
  have hi := (List.getElem?_eq_some_iff.1 ht).1
  have hi' : i < 2 := hi
  have : t = 0 := by
    rw [List.getElem?_eq_getElem hi] at ht
    have := Option.some.inj ht
    rw [← this]
    interval_cases i <;> rfl
  subst this
  interval_cases i <;> exact ⟨rfl, rfl, rfl⟩

/-- The second row is phased to "s". -/
def second : Call :=
  { name := ['s'], lon := some (.scalar 0), lat := some (.scalar 0), mask := some [false, true] }

/-- All rows are phased to "s", without antenna positions. -/
def both : Call := { name := ['s'], lon := some (.scalar 0), lat := some (.scalar 0), useAntPos := false }

theorem second_dict : phaseDict env0 [(0, uEntry)] second ([(0 : Int), 0].map fun _ => 0)
    = .ok (userEntry second, none) := by
  unfold phaseDict
  have : findSource env0 [(0, uEntry)] second ([(0 : Int), 0].map fun _ => 0) = .ok (userEntry second, none) := by
    rfl
  rw [this]
  simp only
  unfold coverTimes
  rw [if_pos (by decide)]

theorem both_dict : phaseDict env0 [(0, uEntry)] both ([(0 : Int), 0].map fun _ => 0)
    = .ok (userEntry both, none) := by
  unfold phaseDict
  have : findSource env0 [(0, uEntry)] both ([(0 : Int), 0].map fun _ => 0) = .ok (userEntry both, none) := by
    rfl
  rw [this]
  simp only
  unfold coverTimes
  rw [if_pos (by decide)]

theorem second_runs : ∃ o', phase env0 two second = .ok o' :=
  phase0 (e := userEntry second) (id := none) (by decide) (by simp)
    (by intro q hq; obtain rfl := Option.some.inj hq; rfl)
    ⟨1, by simp, by intro q hq; obtain rfl := Option.some.inj hq; rfl⟩ rfl rfl (.inl rfl) second_dict
    (ok_of (by decide +kernel))

theorem both_runs : ∃ o', phase env0 two both = .ok o' :=
  phase0 (e := userEntry both) (id := none) (by decide) (by simp)
    (by intro q hq; simp [both] at hq)
    ⟨1, by simp, by intro q hq; simp [both] at hq⟩ rfl rfl (.inr rfl) both_dict
    (ok_of (by decide +kernel))

theorem s_fresh : FreshName [((0 : Int), uEntry)] ['s'] := by
  intro k e h
  simp only [List.mem_singleton, Prod.mk.injEq] at h
  rw [h.2]
  decide

theorem second_other : ¬ Selected second.mask 0 := by
  intro h
  have := h _ rfl
  simp at this

/-- **C71**, **C72** for one of two rows: the measurements are kept; the first row is as it was, with the
source that it had; the second row has the source "s" at the position that the sky gives. -/
example : ∃ o', phase env0 two second = .ok o' ∧ Good o' ∧ Keeps two o' ∧ SameRow two o' 0 ∧
    (∀ x, PointsAt two.st 0 x ↔ PointsAt o'.st 0 x) ∧
    (∃ y, PointsAt o'.st 1 y ∧ y.name = ['s']) ∧ SourceAt o' 1 0 0 0 := by
  obtain ⟨o', h⟩ := second_runs
  refine ⟨o', h, phase_good two_good h,
    phase_keeps_signal_partial two_good h (fun h0 => absurd h0 (by decide)) (.inr (.inl s_fresh)),
    phase_other_rows two_good h 0 second_other,
    phase_other_sources_partial (by simp only [env0]; norm_num) two_good h (.inl s_fresh) 0 second_other, ?_⟩
  obtain ⟨e, x, h1, h2, h3⟩ := phase_selected_rows_partial (by simp only [env0]; norm_num) sky0 angle0 two_good h
    (fun h0 => absurd h0 (by decide)) (by
      rintro e (⟨-, hf⟩ | ⟨k, x, hx, hn, -⟩)
      · rcases hf.type with ⟨-, ht⟩ | ht
        · rw [ht]; decide
        · exact absurd ht (by simp [second])
      · exact absurd hn (s_fresh k x hx)) (by
      intro i j t x y _ _ hx hy
      simp only [two, rowsOf, List.getElem?_map, Option.map_eq_some_iff] at hx hy
      obtain ⟨_, _, rfl⟩ := hx
      obtain ⟨_, _, rfl⟩ := hy
      rfl) (fun _ _ _ => by have := Real.pi_pos; simp only; linarith)
  obtain ⟨⟨y, h4, h5⟩, h6⟩ := h3 1 0 0 (by intro q hq; obtain rfl := Option.some.inj hq; rfl) rfl rfl
  refine ⟨⟨y, h4, ?_⟩, ?_⟩
  · rcases h1 with ⟨-, hf⟩ | ⟨k, x', hx, hn, -⟩
    · rw [← h5.2 rfl, (genEntry_kind h2).2, hf.name]
      rfl
    · exact absurd hn (s_fresh k x' hx)
  · rw [if_neg (by decide)] at h6
    exact h6

/-- **C72** for all rows without antenna positions: the baseline stays. -/
example : ∃ o', phase env0 two both = .ok o' ∧ Baseline o' 1 0 ⟨1, 0, 0⟩ := by
  obtain ⟨o', h⟩ := both_runs
  refine ⟨o', h, phase_moves_baseline two_good h rfl rfl 1 0 ⟨1, 0, 0⟩ ⟨0, 0, 0, ⟨rfl, rfl, rfl⟩, ?_⟩⟩
  rw [sub_zero]
  have := proj_up
  simp only [diff, sub_zero] at this
  rw [this]
  rfl

/-- **C73.** There and back: phased to "s" and unprojected again. -/
example : ∃ o1 o2, phase env0 two both = .ok o1 ∧ unproject env0 o1 false none ['d'] = .ok o2 ∧
    o2.uvw[1]? = two.uvw[1]? ∧ Vis o2 1 0 0 1 := by
  obtain ⟨o1, h1⟩ := both_runs
  have g1 := phase_good two_good h1
  obtain ⟨m, e, id, ra, dec, pa, uvw, s, k, o3, H⟩ := phase_did two_good h1
  have hlen := H.length
  have hl2 : two.uvw.length = 2 := rfl
  have hp : ∀ i, ¬ Unproj o1 i := by
    intro i hu
    have hi := unproj_lt hu
    rw [g1.ids, hlen] at hi
    have hb := (H.selected hi).1.2 (by intro q hq; simp [both] at hq)
    have hty := (H.kind two_good hb).1 hu
    have := H.dict.symm.trans both_dict
    simp only [Except.ok.injEq, Prod.mk.injEq] at this
    rw [this.1] at hty
    exact absurd hty (by decide)
  have hid : ∃ r, unprojId env0 o1 ['d'] = .ok r := by
    have hadd : ∃ r, Verif.PhaseCat.add env0.c env0.pop o1.st
        ⟨['d'], unprojected, none, none, none, none, none, none, none, none, none, Verif.PhaseCat.user⟩ none false
        = .ok r := by
      apply ok_of
      unfold Verif.PhaseCat.add Verif.PhaseCat.addId Verif.PhaseCat.generateId
      rw [if_neg (by simp), if_neg (by simp)]
      have : genEntry env0.c ⟨['d'], unprojected, none, none, none, none, none, none, none, none, none,
          Verif.PhaseCat.user⟩ = .ok { uEntry with name := ['d'] } := by decide +kernel
      rw [this]
      rfl
    unfold unprojId
    obtain ⟨r, hr⟩ := hadd
    split
    · exact ⟨_, rfl⟩
    · rw [hr]
      exact ⟨_, rfl⟩
  obtain ⟨o2, h2⟩ := unproject_succeeds (b := false) (mask := none) g1 (by rw [hlen]; omega) (by intro q hq; simp at hq) hid
  have key := phase_unproject two_good (by omega) two_overhead two_unproj h1 (fun h0 => absurd h0 (by decide)) rfl rfl
    hp h2 1 (by omega)
  exact ⟨o1, o2, h1, h2, key.1, (key.2.2 0 0 1).1 (rowsOf_vis (by simp))⟩

/-- **C74** for two projected rows. -/
example : ∃ o', updateAnts env0 (rowsOf [(0, sEntry)] [0, 0] ⟨0, 0, 1⟩ 0) moveUp false true = .ok o' ∧
    Keeps (rowsOf [(0, sEntry)] [0, 0] ⟨0, 0, 1⟩ 0) o' ∧ Baseline o' 1 0 ⟨2, 0, 0⟩ := by
  set o := rowsOf [(0, sEntry)] [0, 0] ⟨0, 0, 1⟩ 0 with ho
  have hg : Good o := rowsOf_good (by decide) (by simp)
  have hl : o.uvw.length = 2 := rfl
  obtain ⟨o', h⟩ := updateAnts_succeeds_partial (env := env0) hg (by omega) rowsOf_angles moveUp false true
  refine ⟨o', h, updateAnts_keeps_signal_partial hg (by omega) rowsOf_angles (.inr ?_) h, ?_⟩
  · intro i hi
    rw [hl] at hi
    refine proj_of (k := 0) (e := sEntry) (by decide) ?_ (by simp) (by decide)
    interval_cases i <;> rfl
  · have := updateAnts_baselines_partial hg (by omega) rowsOf_angles h 1 0 1 ⟨0, 0, 0⟩ ⟨1, 0, 0⟩ 0 rfl rfl
      ⟨0, rfl, rfl⟩ ⟨1, rfl, rfl⟩ rfl (by
        rintro (h0 | h0)
        · simp at h0
        · simp [newPos, ho, rowsOf, moveUp] at h0)
    simpa [moveUp, diff, ho, rowsOf] using this

/-- **C74** for an unprojected object. -/
example : ∃ o', setUvws env0 two true = .ok o' ∧ Keeps two o' := by
  obtain ⟨o', h⟩ := setUvws_succeeds_partial (env := env0) two_good (by decide) rowsOf_angles true
  exact ⟨o', h, setUvws_keeps_signal_partial two_good (by decide) rowsOf_angles (.inl two_unproj) h⟩

end

end Verif.Phase
