import Verif.CalFits.Refuse
import Mathlib.Tactic.NormNum

/-!
Concrete cases for C113–C115, and where they are false.
-/
namespace Verif.CalFits

open Verif.Fits

/-- The tolerances of the code; roundings do not matter here. -/
def T0 : Tol ℚ where
  ftol := 1 / 1000
  wtol := 1 / 1000
  ttol := 1 / 1000 / 86400
  itol := 1 / 1000
  rtol := 1 / 100000
  atol := 1 / 100000000
  rdF := id
  rdT := id

/-- Gains of two of three antennas, at three channels that are further apart than they are wide, and at two times. -/
def calUp : Cal ℚ where
  delay := false
  nspws := 1
  spw := 0
  freqs := some [100, 102, 104]
  widths := some [1, 1, 1]
  fRange := none
  times := some [5, 5 + 1 / 8640]
  tRanges := none
  intTimes := [10, 10]
  jones := [-5, -6]
  flexJones := none
  antData := [4, 2]
  antNums := [2, 3, 4]
  antNames := ["a".toList, "b".toList, "c".toList]
  gain := fun a c t j => (a + 10 * c, t + 10 * j)
  delays := fun _ _ _ _ => 0
  flags := fun _ c _ _ => decide (c = 1)
  quality := some fun a _ _ _ => a + 7
  total := none

def fileOf (o : Cal ℚ) : Option (CFile ℚ) :=
  match write T0 o with
  | .ok f => some f
  | .error _ => none

def errOf (o : Cal ℚ) : Option CErr :=
  match write T0 o with
  | .ok _ => none
  | .error e => some e

/-- The object is written, and all of it comes back. -/
example : (fileOf calUp).map (fun f => ((read f).freqs, (read f).widths, (read f).times, (read f).intTimes)) =
      some (calUp.freqs, calUp.widths, calUp.times, calUp.intTimes) := by
  decide +kernel

example : (fileOf calUp).map (fun f => ((read f).jones, (read f).antData, (read f).antNums)) = some ([-5, -6], [4, 2], [2, 3, 4]) := by
  decide +kernel

example : (fileOf calUp).map (fun f => ((read f).gain 1 2 1 1, (read f).flags 0 1 0 0, (read f).flags 0 2 0 0, ((read f).quality.map fun q => q 1 0 0 0))) =
      some ((21, 11), true, false, some 8) := by
  decide +kernel

example : Complete calUp :=
  ⟨by decide, by decide, by simp [calUp], by simp [calUp], by simp [calUp], by simp [calUp], by simp [calUp]⟩

/-- Delays of one antenna over a range of times. -/
def calDelay : Cal ℚ :=
  { calUp with delay := true, freqs := none, widths := none, fRange := some (100, 200), times := none, tRanges := some [(5, 7)], intTimes := [10],
               delays := fun a _ _ j => a + j }

example : (fileOf calDelay).map (fun f => ((read f).freqs, (read f).fRange)) = some (none, some (100, 200)) ∧
    (fileOf calDelay).map (fun f => ((read f).times, (read f).tRanges)) = some (none, some [(5, 7)]) := by
  decide +kernel

example : (fileOf calDelay).map (fun f => ((read f).delays 1 0 0 1, (read f).flags 0 1 0 0, ((read f).quality.map fun q => q 1 0 0 0))) =
      some (2, true, some 8) := by
  decide +kernel

/-- The same gains at falling frequencies, apart by their width. -/
def calDown : Cal ℚ := { calUp with freqs := some [102, 101, 100] }

/-- C114 is false for falling frequencies: the gains at 101 and 100 come back as those at 103 and 104. -/
theorem falling_counterexample :
    (fileOf calDown).map (fun f => (read f).freqs) = some (some [102, 103, 104]) ∧
    (fileOf calDown).map (fun f => (read f).gain 0 2 0 0) = some (calDown.gain 0 2 0 0) ∧ calDown.freqs = some [102, 101, 100] := by
  decide +kernel

/-- The hypotheses of `freqs_mirrored` hold for it. -/
example : (∀ x ∈ diffs [102, 101, (100 : ℚ)], x < 0 ∧ |x + mean [1, 1, (1 : ℚ)]| ≤ T0.wtol) := by decide +kernel

/-- Gains of a window as a whole. -/
def calWide : Cal ℚ := { calUp with freqs := none, widths := none, fRange := some (100, 200) }

/-- C114 is false for gains of a window as a whole, which come back as those of a channel of one hertz. -/
theorem wide_counterexample :
    (fileOf calWide).map (fun f => ((read f).freqs, (read f).widths, (read f).fRange)) = some (some [100], some [1], none) := by
  decide +kernel

/-- Jones components that are given by the window. -/
def calFlex : Cal ℚ := { calUp with spw := 3, jones := [0], flexJones := some [-5] }

/-- C113 is false for these, and for the number of the window: it comes back as number zero, without a Jones component. -/
theorem flex_counterexample : (fileOf calFlex).map (fun f => ((read f).spw, (read f).jones, (read f).flexJones)) = some (0, [0], none) := by
  decide +kernel

/-- C113 is false for long names: two antennas come back with the same one. -/
theorem names_counterexample :
    (fileOf { calUp with antNames := ["station-1".toList, "station-2".toList, "c".toList] }).map (fun f => (read f).antNames) =
      some ["station-".toList, "station-".toList, "c".toList] := by
  decide +kernel

/-- C114 is false for an object with times and a range of times, which it should not have: the time is not read. -/
theorem both_counterexample :
    (fileOf { calUp with times := some [5], tRanges := some [(5, 7)], intTimes := [10] }).map (fun f => ((read f).times, (read f).tRanges)) =
      some (none, some [(5, 7)]) := by
  decide +kernel

/-- Each error is met. -/
example : errOf { calUp with nspws := 2 } = some .windows ∧ errOf { calUp with freqs := some [100, 102, 105] } = some .spacing ∧
    errOf { calUp with tRanges := some [(1, 2), (3, 4)] } = some .timeRange ∧ errOf { calUp with times := some [1, 2, 4] } = some .times ∧
    errOf { calUp with intTimes := [10, 11] } = some .intTimes ∧ errOf { calUp with jones := [-5, -6, -8] } = some .jones ∧
    errOf { calUp with jones := [] } = some .attr := by
  decide +kernel

/-- The step from one time to the next: a tenth of the tolerance of `np.isclose` below what it would be noticed at. -/
def driftStep : ℚ := 10 / 86400 + 1 / 100000000

/-- Evenly spaced times, a little more apart than the integration time. -/
def calDrift (n : Nat) : Cal ℚ :=
  { calUp with times := some ((List.range n).map fun (i : Nat) => i * driftStep), intTimes := List.replicate n 10 }

theorem drift_steps (n : Nat) : ∀ z ∈ diffs ((List.range n).map fun (i : Nat) => (i : ℚ) * driftStep), z = driftStep := by
  intro z hz
  obtain ⟨i, a, b, ha, hb, rfl⟩ := mem_diffs_iff.mp hz
  have h1 := (List.getElem?_eq_some_iff.mp hb).1
  simp only [List.length_map, List.length_range] at h1
  rw [List.getElem?_map, List.getElem?_range (by omega)] at ha hb
  simp only [Option.map_some, Option.some.injEq] at ha hb
  rw [← ha, ← hb]
  push_cast
  ring

/-- C114 is false for times: evenly spaced times that differ from the integration time by less than is noticed come back with an error that grows with
their number, over any multiple of their tolerance. -/
theorem drift_counterexample (N : Nat) : ∃ (o : Cal ℚ) (f : CFile ℚ) (ts gs : List ℚ) (i : Nat) (x y : ℚ), write T0 o = .ok f ∧ o.times = some ts ∧
    Even 0 ts ∧ (read f).times = some gs ∧ ts[i]? = some x ∧ gs[i]? = some y ∧ N * T0.ttol ≤ |y - x| := by
  have hd := drift_steps (2 * N + 2)
  have hev : Even 0 ((List.range (2 * N + 2)).map fun (i : Nat) => (i : ℚ) * driftStep) := by
    refine (even_iff (le_refl 0)).mp ((isConst_iff (le_refl 0)).mpr fun x hx y hy => ?_)
    rw [hd x hx, hd y hy]
    simp
  have hc : Complete (calDrift (2 * N + 2)) := by
    refine ⟨by simp [calDrift, calUp], by simp [calDrift, calUp], by simp [calDrift, calUp], by simp [calDrift, calUp], by simp [calDrift, calUp], ?_, by simp [calDrift]⟩
    intro ts hts
    simp only [calDrift, Option.some.injEq] at hts
    rw [← hts]
    simp
  have hw : ∃ f, write T0 (calDrift (2 * N + 2)) = .ok f := by
    refine (write_iff (by norm_num [T0]) (by norm_num [T0]) (by norm_num [T0]) (by norm_num [T0]) hc).mpr ⟨by simp [calDrift, calUp], ?_, ?_, ?_⟩
    · intro fs ws h1 h2 h3
      have e1 : fs = [100, 102, 104] := by simpa [calDrift, calUp] using h1.symm
      have e2 : ws = [1, 1, 1] := by simpa [calDrift, calUp] using h2.symm
      subst e1 e2
      exact ⟨(even_iff (by norm_num [T0])).mp (by decide +kernel), by decide +kernel⟩
    · intro _
      refine ⟨by simp [calDrift, calUp], ?_, ?_⟩
      · intro ts hts
        simp only [calDrift, Option.some.injEq] at hts
        rw [← hts]
        intro i j a b c d ha hb hc hd'
        exact (hev i j a b c d ha hb hc hd').trans (by norm_num [T0])
      · intro x hx y hy
        have hx' := List.eq_of_mem_replicate (by simpa [calDrift] using hx : x ∈ List.replicate (2 * N + 2) 10)
        have hy' := List.eq_of_mem_replicate (by simpa [calDrift] using hy : y ∈ List.replicate (2 * N + 2) 10)
        rw [hx', hy']
        norm_num [T0]
    · exact evenly_iff.mp (by simp [calDrift, calUp, evenly])
  obtain ⟨f, hf⟩ := hw
  obtain ⟨-, -, hs, hz, -, -, -, -, -, -, h3, -, -, -, h4, -⟩ := write_facts hf
  have hn : (calDrift (2 * N + 2)).ntimes = 2 * N + 2 := by simp [Cal.ntimes, calDrift]
  have ht0 : f.time0 = 0 := by
    have : timeZero (calDrift (2 * N + 2)) = .ok 0 := by
      simp [timeZero, calDrift, List.range_succ_eq_map]
    rw [this] at hz
    injection hz with hz
    exact hz.symm
  have hmed : median (calDrift (2 * N + 2)).intTimes = 10 := by
    have := median_mem_between (l := (calDrift (2 * N + 2)).intTimes) (a := 10) (b := 10) (by simp [calDrift]) (by
      intro x hx
      have hx' := List.eq_of_mem_replicate (by simpa [calDrift] using hx : x ∈ List.replicate (2 * N + 2) (10 : ℚ))
      rw [hx']
      exact ⟨le_refl _, le_refl _⟩)
    exact le_antisymm this.2 this.1
  have hhead : (diffs ((calDrift (2 * N + 2)).times.getD [])).headD 0 = driftStep := by
    simp only [calDrift, Option.getD_some]
    exact hd _ (diffs_head_mem (by simp))
  have hstep : f.timeStep = 10 / 86400 := by
    unfold timeStep at hs
    rw [if_pos (by omega)] at hs
    split at hs
    · cases hs
    split at hs
    · cases hs
    split at hs
    · cases hs
    rw [hhead, hmed] at hs
    have hcl : isClose T0.rtol T0.atol driftStep (10 / day) = true := by decide +kernel
    simp only [hcl, if_true, Except.ok.injEq, Prod.mk.injEq] at hs
    rw [← hs.1]
    norm_num [day]
  refine ⟨calDrift (2 * N + 2), f, _, (List.range (2 * N + 2)).map fun (i : Nat) => f.timeStep * i + f.time0, 2 * N, (2 * N : Nat) * driftStep,
    f.timeStep * (2 * N : Nat) + f.time0, hf, rfl, hev, ?_, ?_, ?_, ?_⟩
  · have h4' : f.tRange = none := by rw [h4]; simp [calDrift, calUp]
    simp [read, h3, hn, h4']
  · rw [List.getElem?_map, List.getElem?_range (by omega)]; rfl
  · rw [List.getElem?_map, List.getElem?_range (by omega)]; rfl
  · rw [hstep, ht0]
    have : (10 / 86400 * ((2 * N : Nat) : ℚ) + 0 - ((2 * N : Nat) : ℚ) * driftStep) = -((2 * N : Nat) : ℚ) / 100000000 := by
      unfold driftStep; ring
    rw [this, neg_div, abs_neg, abs_of_nonneg (by positivity)]
    push_cast
    have hN : (0 : ℚ) ≤ N := by positivity
    have : T0.ttol ≤ 2 / 100000000 := by norm_num [T0]
    calc (N : ℚ) * T0.ttol ≤ N * (2 / 100000000) := mul_le_mul_of_nonneg_left this hN
      _ = 2 * (N : ℚ) / 100000000 := by ring

end Verif.CalFits
