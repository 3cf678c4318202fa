import Verif.MsVis.Findings

/-! # Examples -/

namespace Verif.MsVis
open Verif.Np Verif.Slices Verif.Pol

def wEx : Ops Int Int Int Int := ⟨fun x => -x, fun x => -x, fun l => l.headD 0, fun _ _ => true, 0, 1, 0⟩

def visEx (r f p : Nat) : Vis Int Int := ⟨100 * r + 10 * f + p + 1, decide (r = f), p⟩

/-- One window, four polarizations in the order of AIPS. -/
def oneEx : Obj Int Int Int Int String where
  rows := [⟨3, 0, 1, 10, 7, 5, 1⟩, ⟨1, 0, 2, 10, 8, 2, 1⟩]
  chans := [⟨4, 200, 1⟩, ⟨4, 100, 2⟩]
  spws := [4]
  pols := [-5, -6, -7, -8]
  flexPol := none
  cats := [(2, "a"), (5, "b")]
  unproj := false
  data := visEx

theorem oneEx_good : Good oneEx := by
  constructor <;> decide +kernel

theorem oneEx_pols : PolsGood oneEx [0, 2, 3, 1] := by
  refine ⟨⟨[8, 11, 9, 10], ?_, ?_⟩, ?_, ?_⟩
  · decide +kernel
  · exact ⟨by decide +kernel, by simp⟩
  · decide +kernel
  · decide +kernel

example : NoSingle oneEx := by unfold NoSingle; decide +kernel

/-- The example has visibilities, and they come back. -/
example : ∃ file o', write wEx true [0, 2, 3, 1] oneEx = .ok file ∧ read wEx false true true true file = .ok o' ∧
    Has o' ⟨1, 0, 2, 10, -8, 1, "a", 4, 100, 2, -7⟩ ⟨-113, true, 2⟩ := by
  obtain ⟨file, o', h1, h2, h3⟩ := one_survives wEx true true true true oneEx_good oneEx_pols
    (Or.inr (by unfold NoSingle; decide +kernel)) (by decide +kernel)
  refine ⟨file, o', h1, h2, (h3 _ _).2 ⟨⟨1, 0, 2, 10, 8, 1, "a", 4, 100, 2, -7⟩, ⟨113, true, 2⟩, ?_, rfl, rfl⟩⟩
  exact ⟨1, 1, 2, _, _, rfl, rfl, rfl, rfl, rfl, rfl, rfl, rfl, rfl, by decide +kernel, rfl, rfl, rfl, rfl⟩

/-- Two windows, interleaved. -/
def manyEx : Obj Int Int Int Int String where
  rows := [⟨3, 0, 1, 10, 7, 5, 2⟩, ⟨1, 0, 2, 10, 8, -1, 1⟩, ⟨1, 0, 1, 10, 9, 5, 2⟩]
  chans := [⟨4, 200, 1⟩, ⟨2, 50, 1⟩, ⟨4, 100, 2⟩, ⟨2, 60, 1⟩, ⟨2, 70, 1⟩]
  spws := [4, 2]
  pols := [-6, -5, -7]
  flexPol := none
  cats := [(-1, "a"), (5, "b")]
  unproj := false
  data := visEx

theorem manyEx_good : Good manyEx := by
  constructor <;> decide +kernel

theorem manyEx_pols : PolsGood manyEx [1, 2, 0] := by
  refine ⟨⟨[11, 8, 9], ?_, ?_⟩, ?_, ?_⟩
  · decide +kernel
  · exact ⟨by decide +kernel, by simp⟩
  · decide +kernel
  · decide +kernel

theorem manyEx_apart : Apart manyEx := by unfold Apart; decide +kernel

theorem manyEx_single : NoSingle manyEx := by unfold NoSingle; decide +kernel

example : ∃ file o', write wEx false [1, 2, 0] manyEx = .ok file ∧ read wEx false true false true file = .ok o' ∧
    Has o' ⟨1, 0, 2, 10, 8, 1, "a", 2, 70, 1, -7⟩ ⟨143, false, 2⟩ := by
  obtain ⟨file, o', h1, h2, h3, _⟩ := many_survives wEx false true false true manyEx_good manyEx_pols (Or.inr manyEx_single)
    (by decide +kernel) manyEx_apart (Or.inr (fun _ => rfl))
  refine ⟨file, o', h1, h2, h3 ⟨1, 0, 2, 10, 8, 1, "a", 2, 70, 1, -7⟩ ⟨143, false, 2⟩ ?_⟩
  exact ⟨1, 4, 2, _, _, rfl, rfl, rfl, rfl, rfl, rfl, rfl, rfl, rfl, by decide +kernel, rfl, rfl, rfl, rfl⟩

/-- One polarization for each window. -/
def flexEx : Obj Int Int Int Int String where
  rows := [⟨3, 0, 1, 10, 7, 5, 1⟩]
  chans := [⟨4, 200, 1⟩, ⟨2, 50, 1⟩, ⟨4, 100, 2⟩, ⟨2, 60, 1⟩]
  spws := [4, 2]
  pols := [0]
  flexPol := some [-6, -5]
  cats := [(5, "b")]
  unproj := false
  data := visEx

theorem flexEx_good : Good flexEx := by
  constructor <;> decide +kernel

theorem flexEx_pols : PolsGood flexEx [0] := by
  refine ⟨⟨[12], ?_, ?_⟩, ?_, ?_⟩
  · decide +kernel
  · exact ⟨by decide +kernel, by simp⟩
  · decide +kernel
  · decide +kernel

example (allow : Bool) : ∃ file o', write wEx false [0] flexEx = .ok file ∧ read wEx false true allow true file = .ok o' ∧
    Has o' ⟨3, 0, 1, 10, 7, 1, "b", 2, 60, 1, -5⟩ ⟨31, false, 0⟩ := by
  obtain ⟨file, o', h1, h2, h3, _⟩ := many_survives wEx false true allow true flexEx_good flexEx_pols
    (Or.inr (by unfold NoSingle; decide +kernel)) (by decide +kernel) (by unfold Apart; decide +kernel) (Or.inr (fun _ => rfl))
  refine ⟨file, o', h1, h2, h3 ⟨3, 0, 1, 10, 7, 1, "b", 2, 60, 1, -5⟩ ⟨31, false, 0⟩ ?_⟩
  exact ⟨0, 3, 0, _, _, rfl, rfl, rfl, rfl, rfl, rfl, rfl, rfl, rfl, by decide +kernel, rfl, rfl, rfl, rfl⟩

/-- Polarizations in the opposite order. -/
def revEx : Obj Int Int Int Int String := { oneEx with pols := [-6, -5] }

theorem revEx_good : Good revEx := by
  constructor <;> decide +kernel

theorem revEx_order : PolOrderResult revEx.pols .casa [1, 0] := by
  refine ⟨[11, 8], ?_, ?_⟩
  · decide +kernel
  · exact ⟨by decide +kernel, by simp⟩

example : Has revEx ⟨1, 0, 2, 10, 8, 1, "a", 4, 100, 2, -5⟩ ⟨112, true, 1⟩ :=
  ⟨1, 1, 1, _, _, rfl, rfl, rfl, rfl, rfl, rfl, rfl, rfl, rfl, by decide +kernel, rfl, rfl, rfl, rfl⟩

example : ∃ file o', write wEx false [1, 0] revEx = .ok file ∧ read wEx false false true true file = .ok o' ∧ ∀ L v, ¬ Has o' L v :=
  reversed_pair_counterexample wEx false false true true revEx_good (Or.inl rfl) (by decide +kernel) (by decide +kernel)

/-- With three polarizations in the opposite order, only one is written. -/
theorem reversed_three_counterexample : ∃ file, write wEx false [2, 1, 0] { oneEx with pols := [-6, -7, -5] } = .ok file ∧
    file.polTab = [[9]] ∧ file.main.map (fun r => r.vis.map (fun l => l.map (fun v => v.d))) = [[[3], [13]], [[103], [113]]] := by
  refine ⟨_, rfl, ?_, ?_⟩
  · decide +kernel
  · decide +kernel

/-- The weights of one window are not in the order of the visibilities: here visibilities have the weights 0, 2, 3, 1. -/
theorem weight_counterexample : ∃ file, write wEx false [0, 2, 3, 1] oneEx = .ok file ∧
    file.main.map (fun r => r.vis.map (fun l => l.map (fun v => v.n))) = [[[0, 2, 3, 1], [0, 2, 3, 1]], [[0, 2, 3, 1], [0, 2, 3, 1]]] ∧
    file.main.map (fun r => r.weight) = [[0, 1, 2, 3], [0, 1, 2, 3]] := by
  refine ⟨_, rfl, ?_, ?_⟩
  · decide +kernel
  · decide +kernel

def errOf {α : Type} : Except Err α → Option Err
  | .error e => some e
  | .ok _ => none

/-- Two windows, one of a single channel: an error. -/
theorem single_one_left_counterexample : ∃ file, write wEx false [1, 2, 0] { manyEx with chans := [⟨4, 200, 1⟩, ⟨2, 50, 1⟩, ⟨2, 60, 1⟩] } = .ok file ∧
    errOf (read wEx false true true true file) = some .casacore := by
  refine ⟨_, rfl, ?_⟩
  decide +kernel

/-- Three windows, one of a single channel: it is left out, without an error. -/
theorem single_lost_counterexample : ∃ file o', write wEx false [1, 2, 0]
      { manyEx with chans := [⟨4, 200, 1⟩, ⟨2, 50, 1⟩, ⟨2, 60, 1⟩, ⟨9, 70, 1⟩, ⟨9, 80, 1⟩], spws := [4, 2, 9] } = .ok file ∧
    read wEx false true true true file = .ok o' ∧ o'.spws = [2, 9] ∧ o'.chans.map (fun c => c.freq) = [50, 60, 70, 80] := by
  refine ⟨_, _, rfl, rfl, ?_, ?_⟩
  · decide +kernel
  · decide +kernel

/-- Rows of the same time and antennas become one, with several windows. -/
theorem same_merged_counterexample : ∃ file o', write wEx false [1, 2, 0]
      { manyEx with rows := [⟨3, 0, 1, 10, 7, 5, 2⟩, ⟨3, 0, 1, 10, 7, 5, 2⟩] } = .ok file ∧
    read wEx false true true true file = .ok o' ∧ o'.rows.length = 1 ∧ (o'.data 0 0 0).d = 112 := by
  refine ⟨_, _, rfl, rfl, ?_, ?_⟩
  · decide +kernel
  · decide +kernel

/-- A file of two windows whose table of polarizations is not in the order of numbers: the visibility of the first (12) is labelled
with 9. -/
theorem unsorted_labels_counterexample : ∃ o', read wEx false true true true
      (⟨[⟨⟨3, 0, 1, 10, 7, 0, 1⟩, 0, [[⟨1, false, 1⟩, ⟨2, false, 1⟩], [⟨1, false, 1⟩, ⟨2, false, 1⟩]], [1, 1]⟩,
         ⟨⟨3, 0, 1, 10, 7, 0, 1⟩, 1, [[⟨1, false, 1⟩, ⟨2, false, 1⟩], [⟨1, false, 1⟩, ⟨2, false, 1⟩]], [1, 1]⟩],
        [(0, 0), (1, 0)], [⟨4, [(100, 1), (200, 1)]⟩, ⟨5, [(300, 1), (400, 1)]⟩], [[12, 9]], [(0, "a")]⟩ : File Int Int Int Int String) = .ok o' ∧
    o'.pols = [-5, -6] ∧ (o'.data 0 0 0).d = 1 := by
  refine ⟨_, rfl, ?_, ?_⟩
  · decide +kernel
  · decide +kernel

example : write wEx false [0, 1] { oneEx with pols := [1, 2] } = .error .value := by
  have hg : Good { oneEx with pols := [1, 2] } := by
    constructor <;> decide +kernel
  refine stokes_refused wEx false hg ⟨[0, 1], by decide +kernel, ?_⟩ (by decide +kernel) ⟨1, by decide +kernel, by decide⟩
  exact ⟨by decide +kernel, by simp⟩

example : (afterWrite wEx true [0] { oneEx with pols := [-5] }).data 1 1 0 = ⟨-111, true, 0⟩ :=
  in_place_counterexample wEx (by decide +kernel) (by decide +kernel) 1 1

end Verif.MsVis
