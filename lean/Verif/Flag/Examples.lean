import Verif.Flag.Metric

/-! Concrete cases that meet the hypotheses of the flag theorems, and counterexamples. -/
namespace Verif.Flag
open Verif.Np
open Verif.TimeSel (isclose)

/-- The values of a plane on two channels and two polarizations. -/
def grid (pl : Plane) : List Bool := [pl 0 0, pl 0 1, pl 1 0, pl 1 1]

def gridRes (r : Except Err (Bl ℚ)) : Option (List (List Bool)) :=
  match r with
  | .ok o => some (o.flags.map grid)
  | .error _ => none

/-- Flags at one channel and polarization. -/
def at1 (f p : Nat) : Plane := fun g q => decide (g = f ∧ q = p)

/-- Data: two pairs at two times. -/
def exD : Bl ℚ where
  pairs := [(0, 1), (0, 2), (0, 1), (0, 2)]
  times := [1, 1, 2, 2]
  lsts := [5, 5, 6, 6]
  freqs := [100, 101]
  pols := [-5, -6]
  nf := 2
  np := 2
  flags := [clear, at1 0 1, clear, clear]

/-- Flags for one of the pairs. -/
def exF : Bl ℚ := { exD with pairs := [(0, 1), (0, 1)], times := [1, 2], lsts := [5, 6], flags := [at1 0 0, at1 1 1] }

/-- A waterfall with the same times. -/
def exW : Wf ℚ where
  times := [1, 2]
  lsts := [5, 6]
  freqs := [100, 101]
  pols := [-5, -6]
  nf := 2
  np := 2
  flags := [at1 0 0, at1 1 1]

/-- Antenna flags at the first time. -/
def exA : An ℚ where
  ants := [0, 1]
  times := [1]
  lsts := [5]
  freqs := [100, 101]
  pols := [-5, -6]
  nf := 2
  np := 2
  flags := [[at1 0 0], [at1 1 1]]

/-- `apply_bl_exact`: the pair without flags gets all of them with `flag_missing`, and none without. -/
example : gridRes (apply true true (0, 0) 0 0 false true exD (.bl exF)) =
    some [[true, false, false, false], [true, true, true, true], [false, false, false, true], [true, true, true, true]] := by
  decide +kernel

example : gridRes (apply true true (0, 0) 0 0 false false exD (.bl exF)) =
    some [[true, false, false, false], [false, true, false, false], [false, false, false, true], [false, false, false, false]] := by
  decide +kernel

example : exD.flags.length = exD.pairs.length ∧ exF.flags.length = exF.pairs.length := by decide +kernel

/-- `apply_bl_labels`: the two objects are aligned. -/
example : Aligned exD exF where
  rows := by decide +kernel

example : Labelled exF := by
  intro i j ap t h1 h2 h3 h4
  have hn : exF.times.Nodup := by decide +kernel
  exact (List.getElem?_inj (List.getElem?_eq_some_iff.1 h3).1 hn).1 (h3.trans h4.symm)

/-- `to_baseline_wf_partial`, `apply_wf_exact`. -/
example : gridRes (toBaselineWf true false (0, 0) exD exW) =
    some [[true, false, false, false], [true, false, false, false], [false, false, false, true], [false, false, false, true]] := by
  decide +kernel

example : exW.flags.length = exW.times.length ∧ exW.times.Pairwise (· < ·) ∧
    (∀ s ∈ exD.times, ∀ t ∈ exW.times, ∀ t' ∈ exW.times, isclose (0, 0) s t = true → isclose (0, 0) s t' = true → t = t') := by
  decide +kernel

/-- `to_baseline_an`: antenna 2 is not there and the second time is not there. -/
example : gridRes (toBaselineAn true false (0, 0) exD exA) =
    some [[true, false, false, true], [true, true, true, true], [true, true, true, true], [true, true, true, true]] := by
  decide +kernel

example : exA.flags.length = exA.ants.length ∧ exA.ants.Nodup := by decide +kernel

/-- `to_waterfall_bl` on rows that are not in the order of time. -/
def exB : Bl ℚ := { exD with times := [2, 1, 1, 2], lsts := [6, 5, 5, 6], flags := [at1 0 0, clear, at1 1 1, full] }

example : (toWaterfallBl .or exB).times = [1, 2] ∧ (toWaterfallBl .or exB).lsts = [5, 6] ∧
    (toWaterfallBl .or exB).flags.map grid = [[false, false, false, true], [true, true, true, true]] ∧
    (toWaterfallBl .and exB).flags.map grid = [[false, false, false, false], [true, false, false, false]] := by
  decide +kernel

example : exB.lsts.length = exB.times.length := by decide +kernel

/-- C29 counterexample: waterfalls joined along the time axis keep their order (`addWf`), and then the flags of one time
are put on the rows of the other. -/
theorem to_baseline_unsorted_counterexample :
    (addWf .time { exW with times := [2], lsts := [6], flags := [at1 1 1] } { exW with times := [1], lsts := [5], flags := [at1 0 0] }).map
      (fun w => (w.times, gridRes (toBaselineWf true false (0, 0) exD w))) =
    some ([2, 1], some [[false, false, false, true], [false, false, false, true], [true, false, false, false],
      [true, false, false, false]]) := by decide +kernel

/-- C26 counterexample: polarizations in another order; the labels are moved but the flags are not. Polarization -5 is
flagged in the flag object, polarization -6 in the result. -/
theorem apply_pol_order_counterexample :
    gridRes (apply true true (0, 0) 0 0 false false exD
      (.bl { exF with pols := [-6, -5], flags := [at1 0 1, at1 1 1] })) =
    some [[false, true, false, false], [false, true, false, false], [false, false, false, true], [false, false, false, false]] := by
  decide +kernel

/-- C26 counterexample: the times of the flags are far before those of the data and are accepted; the reverse is refused. -/
theorem apply_times_sign_counterexample :
    gridRes (apply true true (0, 0) 0 0 false false exD (.bl { exF with times := [-100, -99] })) =
      gridRes (apply true true (0, 0) 0 0 false false exD (.bl exF)) ∧
    gridRes (apply true true (0, 0) 0 0 false false exD (.bl { exF with times := [100, 101] })) = none := by
  decide +kernel

/-- C26 counterexample: the rows of a pair in another order of time; the flags go to the wrong times. -/
theorem apply_row_order_counterexample :
    gridRes (apply true true (0, 0) 0 0 false false exD
      (.bl { exF with times := [2, 1], lsts := [6, 5], flags := [at1 1 1, at1 0 0] })) =
    some [[false, false, false, true], [false, true, false, false], [true, false, false, false], [false, false, false, false]] := by
  decide +kernel

/-- C26 counterexample: a pair stored in the other direction counts as missing, and is flagged completely. -/
theorem apply_reversed_counterexample :
    gridRes (apply true true (0, 0) 0 0 false true exD
      (.bl { exF with pairs := [(1, 0), (1, 0)], flags := [clear, clear] })) =
    some [[true, true, true, true], [true, true, true, true], [true, true, true, true], [true, true, true, true]] := by
  decide +kernel

/-- `andRowsCols_iff`, `convert_wgts_bl`. -/
example : ((andRowsCols (K := ℚ) 2 [fun g => decide (g = 0), fun _ => true]).map (fun r => [r 0, r 1])) =
    [[true, false], [true, true]] := by decide +kernel

def exC : Bl ℚ := { exD with pairs := [(0, 1), (0, 2), (0, 1), (0, 2)], flags := [at1 0 0, full, full, clear] }

example : (convertWgtsBl exC).map (fun w => [w 0 0, w 0 1, w 1 0, w 1 1]) =
    [[0, 1, 1, 1], [0, 0, 0, 0], [0, 0, 0, 0], [1, 1, 1, 1]] := by decide +kernel

example : 0 < exC.nf ∧ exC.flags.length = exC.pairs.length := by decide +kernel

/-- `to_metric_to_flag` for the threshold 1/2. -/
example : (0 : ℚ) < 1 / 2 ∧ (1 / 2 : ℚ) ≤ 1 := by decide +kernel

/-- `to_metric_to_flag_outside` for the threshold 0. -/
example : (toFlag (some (0 : ℚ)) (toMetric [clear])).map grid = [[true, true, true, true]] := by decide +kernel

/-- `flags2waterfall_pol`, `flags2waterfall_nopol`. -/
example : (flags2wfPol exB).map (fun w => [w 0 0, w 0 1, w 1 0, w 1 1]) = [[0, 0, 0, 1 / 2], [1, 1 / 2, 1 / 2, 1 / 2]] ∧
    (flags2wf exB).map (fun w => [w 0, w 1]) = [[0, 1 / 4], [3 / 4, 1 / 2]] := by decide +kernel

/-- `or_flags_exact`. -/
example : (orFlags [at1 0 0, clear] [at1 1 1, full]).map (fun l => l.map grid) =
    some [[true, false, false, true], [true, true, true, true]] := by decide +kernel

/-- C51 counterexample: the labels are not compared, so the flags of one time are put on another. -/
theorem or_flags_labels_counterexample :
    ∃ a b : Wf ℚ, a.times = [1] ∧ b.times = [2] ∧
      (orFlags a.flags b.flags).map (fun l => l.map grid) = some [[true, true, true, true]] ∧
      a.flags.map grid = [[false, false, false, false]] :=
  ⟨{ exW with times := [1], lsts := [5], flags := [clear] }, { exW with times := [2], lsts := [6], flags := [full] },
    by decide +kernel⟩

/-- `add_wf_cells` along the frequency axis. -/
example : (addWf .freq exW { exW with freqs := [102, 103], flags := [full, clear] }).map
    (fun w => (w.freqs, w.flags.map (fun pl => [pl 0 0, pl 1 0, pl 2 0, pl 3 0]))) =
    some ([100, 101, 102, 103], [[true, false, true, true], [false, false, false, false]]) := by decide +kernel

example : WfOk exW := ⟨by decide +kernel, by decide +kernel, by decide +kernel⟩

end Verif.Flag
