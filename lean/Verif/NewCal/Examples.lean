import Mathlib.Data.Rat.Defs
import Mathlib.Algebra.Order.Ring.Rat
import Verif.NewCal.Vis

/-! Concrete cases that meet the hypotheses. -/

namespace Verif.NewCal
open Verif.NewData (Num)

def tel1 : Tel Nat ℚ := ⟨[5, 2, 9], [['a'], ['b'], ['c']], [10, 11, 12], some [1, 2, 3], some "east".toList⟩

/-- Two time ranges of two and three days and two windows. -/
def args1 : Args ℚ Nat ℚ ℤ :=
  { tel := tel1, style := .redundant, jones := .names ["Jee".toList, "Jnn".toList], ranges := some [(0, 2), (3, 6)], freqRange := some [(1, 2), (4, 7)]
    empty := true, ants := some [9, 5] }

/-- Three channels of two windows at two times. -/
def args2 : Args ℚ Nat ℚ ℤ :=
  { tel := tel1, style := .sky, jones := .linear, times := some [1, 3], intg := .one 4, freqs := some [1, 2, 4], width := .all [1, 1, 2]
    ids := some [3, 1, 3], refAnt := some ['a'], catalog := some ['g'], calType := some .delay
    data := { gain := some ⟨[3, 3, 2, 4], fun p => p.sum⟩ } }

def seen (r : Except Err (Cal ℚ Nat ℚ ℤ)) : Option (List (List Int) × List (List Nat)) :=
  match r with
  | .ok c => some ([c.ants, c.jones, c.spws], [(c.gain.map (·.shape)).getD [], (c.delay.map (·.shape)).getD []])
  | .error _ => none

theorem args1_ok : ∃ c, new (fun t => t + 1) (fun _ => false) args1 = .ok c := by
  have h : (seen (new (fun t => t + 1) (fun _ => false) args1)).isSome = true := by decide +kernel
  cases hn : new (fun t => t + 1) (fun _ => false) args1 with
  | ok c => exact ⟨c, rfl⟩
  | error e => rw [hn] at h; cases h

theorem args2_ok : ∃ c, new (fun t => t + 1) (fun _ => false) args2 = .ok c := by
  have h : (seen (new (fun t => t + 1) (fun _ => false) args2)).isSome = true := by decide +kernel
  cases hn : new (fun t => t + 1) (fun _ => false) args2 with
  | ok c => exact ⟨c, rfl⟩
  | error e => rw [hn] at h; cases h

/-! `accept`, `made` -/

example : Acceptable (fun _ => false) args1 := (accept (fun t => t + 1) _ _).1 args1_ok
example : Acceptable (fun _ => false) args2 := (accept (fun t => t + 1) _ _).1 args2_ok
example : seen (new (fun t => t + 1) (fun _ => false) args1) = some ([[9, 5], [-5, -6], [0, 1]], [[], [2, 2, 2, 2]]) := by decide +kernel
example : seen (new (fun t => t + 1) (fun _ => false) args2) = some ([[5, 2, 9], [-5, -6, -7, -8], [1, 3]], [[3, 3, 2, 4], []]) := by decide +kernel
example : ∃ c, Made (fun t => t + 1) args1 c := args1_ok.imp fun _ h => made _ _ _ _ h
/-- One antenna that the telescope does not have. -/
example : ¬ Acceptable (fun _ => false) { args1 with ants := some [9, 4] } := by
  rw [← accept (fun t => t + 1)]
  rintro ⟨c, h⟩
  have e : (seen (new (fun t => t + 1) (fun _ => false) { args1 with ants := some [9, 4] })).isSome = false := by decide +kernel
  rw [h] at e
  cases e

/-! The counterexamples -/

example : ∀ c, new (fun t => t + 1) (fun _ => false) { args1 with ranges := some [(0, 2)] } ≠ .ok c :=
  one_range_counterexample _ _ _ (0, 2) rfl rfl
/-- With an integration time it is accepted. -/
example : (seen (new (fun t => t + 1) (fun _ => false) { args1 with ranges := some [(0, 2)], intg := .one 7 })).isSome = true := by decide +kernel
example : ∃ c, new (fun t => t + 1) (fun _ => false) args2 = .ok c ∧ c.calType = .gain ∧ c.delay = none :=
  args2_ok.imp fun _ h => ⟨h, delay_channels_counterexample _ _ _ _ rfl h⟩

/-! Visibilities -/

def vis1 : Vis ℚ Nat ℚ := ⟨tel1, [(3, 10, 5, 9), (1, 20, 5, 9), (3, 10, 9, 9)], [4, 1, 3, 9], [1, 1, 2, 2], [7, 7, 2, 2], [-5, -6]⟩

theorem vis1_fits : VisFits vis1 := by
  refine ⟨⟨rfl, rfl, ?_⟩, by decide, by decide, by decide, rfl, rfl, by decide, by decide, .inl (by decide)⟩
  intro d hd
  cases hd
  rfl

def opts1 : Opts ℚ Nat ℚ ℤ := { style := .redundant }
def opts2 : Opts ℚ Nat ℚ ℤ := { style := .redundant, calType := .delay, empty := true, antNumbers := some [5, 9, 4], orient := some "north".toList }

theorem vis1_ok : ∃ c, fromVis (fun t => t + 1) (fun _ => false) vis1 opts1 = .ok c :=
  vis_succeeds _ _ vis1_fits _ (.inr rfl) (by simp [opts1]) rfl rfl rfl rfl rfl rfl rfl rfl rfl rfl

theorem vis2_ok : ∃ c, fromVis (fun t => t + 1) (fun _ => false) vis1 opts2 = .ok c := by
  have h : (seen (fromVis (fun t => t + 1) (fun _ => false) vis1 opts2)).isSome = true := by decide +kernel
  cases hn : fromVis (fun t => t + 1) (fun _ => false) vis1 opts2 with
  | ok c => exact ⟨c, rfl⟩
  | error e => rw [hn] at h; cases h

example : ∃ c T, fromVis (fun t => t + 1) (fun _ => false) vis1 opts1 = .ok c ∧ c.times = some T ∧ ∀ t, t ∈ T ↔ ∃ r ∈ vis1.rows, r.1 = t := by
  obtain ⟨c, h⟩ := vis1_ok
  obtain ⟨T, -, h1, -, -, -, h2, -⟩ := vis_times h rfl rfl rfl
  exact ⟨c, T, h, h1, h2⟩
example : ∃ c, fromVis (fun t => t + 1) (fun _ => false) vis1 opts1 = .ok c ∧ c.freqs = some [4, 1, 3, 9] ∧ ∀ n, n ∈ c.jones ↔ ∃ p ∈ vis1.pols, n ∈ feeds p := by
  obtain ⟨c, h⟩ := vis1_ok
  exact ⟨c, h, (vis_channels h rfl rfl).2.2.1, vis_jones_partial h rfl (by decide) (by decide) (.inl (by decide))⟩
example : ∃ c, fromVis (fun t => t + 1) (fun _ => false) vis1 opts2 = .ok c ∧ c.ants.Pairwise (· < ·) ∧ ∃ R, c.freqRange = some R ∧ R.length = c.spws.length := by
  obtain ⟨c, h⟩ := vis2_ok
  obtain ⟨-, -, R, h1, h2, -⟩ := vis_windows h (.inl rfl) rfl
  exact ⟨c, h, (vis_ants h).1, R, h1, h2⟩
example : seen (fromVis (fun t => t + 1) (fun _ => false) vis1 opts2) = some ([[5, 9], [-5, -6], [2, 7]], [[], [2, 2, 2, 2]]) := by decide +kernel
example : ((match fromVis (fun t => t + 1) (fun _ => false) vis1 opts2 with
  | .ok c => c.freqRange
  | .error _ => none) : Option (List (ℚ × ℚ))) = some [(3, 9), (1, 4)] := by decide +kernel
example : ∃ c t, fromVis (fun t => t + 1) (fun _ => false) vis1 opts2 = .ok c ∧ antennas tel1 (some [5, 9, 4]) none = .ok t ∧ c.tel = { t with orient := some "north".toList } := by
  obtain ⟨c, h⟩ := vis2_ok
  obtain ⟨t, h1, h2⟩ := vis_telescope h
  exact ⟨c, t, h, h1, h2⟩

-- Ranges that are given, for windows of the visibilities.
def opts3 : Opts ℚ Nat ℚ ℤ := { opts2 with freqRange := some [(2, 10), (0, 5)] }
theorem vis3_ok : ∃ c, fromVis (fun t => t + 1) (fun _ => false) vis1 opts3 = .ok c := by
  cases h : fromVis (fun t => t + 1) (fun _ => false) vis1 opts3 with
  | ok c => exact ⟨c, rfl⟩
  | error e =>
    have : (match fromVis (fun t => t + 1) (fun _ => false) vis1 opts3 with | .ok _ => true | .error _ => false) = true := by decide +kernel
    rw [h] at this
    cases this
example : ∃ c, fromVis (fun t => t + 1) (fun _ => false) vis1 opts3 = .ok c ∧ c.freqRange = some [(2, 10), (0, 5)] ∧ ∀ w, w ∈ c.spws ↔ w ∈ vis1.ids := by
  obtain ⟨c, h⟩ := vis3_ok
  obtain ⟨-, h1, h2, -⟩ := vis_ranges h (.inl rfl) rfl
  exact ⟨c, h, h1, (h2 rfl).2⟩

/-! Telescopes -/

example : ∃ t, antennas tel1 (some [5, 2]) none = .ok t ∧ t.numbers = [2, 5] ∧ t.names = [['b'], ['a']] ∧ t.pos = [11, 10] :=
  ⟨_, rfl, by decide +kernel, by decide +kernel, by decide +kernel⟩
example : Part tel1 (restrict tel1 [0, 1]) (fun i => ∃ n, tel1.numbers[i]? = some n ∧ n ∈ [(5 : Int), 2]) := by
  have hf : TelFits tel1 := vis1_fits.tel
  have h : antennas tel1 (some [5, 2]) none = .ok (restrict tel1 (among tel1.numbers [5, 2])) := rfl
  have e : among tel1.numbers [5, 2] = [0, 1] := by decide +kernel
  rw [e] at h
  rcases antennas_part hf h with ⟨h, -⟩ | ⟨l, hl, -, hp⟩ | ⟨l, h, -⟩
  · cases h
  · cases hl
    exact hp
  · cases h
def tel2 : Tel Nat ℚ := { tel1 with numbers := [2, 5, 9] }
example : ∃ d', (restrict tel2 [0, 2]).diam = some d' ∧ d'.length = (restrict tel2 [0, 2]).numbers.length ∧
    ∀ (k : Nat) n x, (restrict tel2 [0, 2]).numbers[k]? = some n → d'[k]? = some x → ∃ i : Nat, tel2.numbers[i]? = some n ∧ ([1, 2, 3] : List ℚ)[i]? = some x :=
  diameters_partial (by decide) ⟨rfl, rfl, by intro d hd; cases hd; rfl⟩ rfl (by decide) (by decide)
example : ∃ t', antennas { tel1 with numbers := [5, 2], diam := some [1, 2] } (some [5, 2]) none = .ok t' ∧ t'.numbers = [2, 5] ∧ t'.diam = some [1, 2] :=
  diameters_counterexample _ _ _ _ _ (by decide) rfl rfl

/-! Jones terms -/

example : ∃ l, visJones [-7] = .ok l ∧ ∀ j, j ∈ l ↔ ∃ p ∈ [(-7 : Int)], j ∈ feeds p := jones_feeds _ (by decide) (by decide) (.inl (by decide))
example : ∃ l, visJones [-2] = .ok l ∧ ∀ j, j ∈ l ↔ ∃ p ∈ [(-2 : Int)], j ∈ feeds p := jones_feeds _ (by decide) (by decide) (.inr (by decide))
example : visJones [-5, -6, -1] = .ok [-1, -2] := mixed_counterexample _ (by decide) (by decide) (by decide)

end Verif.NewCal
