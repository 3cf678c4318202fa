import Verif.CalSort.Order

/-! Objects that meet the hypotheses, and what reordering does to them. -/
namespace Verif.CalSort
open Verif.FreqSort

/-- Stable sorting; names are numbers here. -/
def sorts : Sorts ℚ Nat := ⟨stable Int, stable ℚ, stable Nat⟩

/-- Two antennas, three channels in two windows out of order with a Jones component each, two times. -/
def sample : Cal ℚ Nat where
  wide := false
  ants := [5, 3]
  freqs := [5, 1, 4]
  widths := [1, 2, 3]
  ids := [7, 3, 7]
  ranges := []
  spws := [7, 3]
  flexJones := some [-5, -6]
  times := ⟨some [2, 1], none, some [20, 10], none, some [1, 0], none, [60, 30]⟩
  jones := [0]
  main := [[[[111], [112]], [[121], [122]], [[131], [132]]], [[[211], [212]], [[221], [222]], [[231], [232]]]]
  flags := [[[[true], [false]], [[false], [false]], [[true], [false]]], [[[false], [false]], [[true], [false]], [[true], [true]]]]
  quality := none
  total := some [[[1], [2]], [[3], [4]], [[5], [6]]]

theorem sample_good : Good sample where
  chans := fun _ => ⟨⟨rfl, by decide, by decide, by decide, by decide⟩, rfl⟩
  wides := fun h => by cases h
  flex := fun l h => by cases h; rfl
  time := fun l h => by cases h; rfl
  timeRange := fun l h => by cases h
  lst := fun l h => by cases h; rfl
  lstRange := fun l h => by cases h
  center := fun l h => by cases h; rfl
  ref := fun l h => by cases h
  main := by unfold Shape4 Shape3; decide
  flags := by unfold Shape4 Shape3; decide
  quality := fun l h => by cases h
  total := fun l h => by cases h; unfold Shape3; decide

theorem sample_distinct : DistinctLabels sample where
  ants := by decide
  chans := by decide +kernel
  times := by decide +kernel
  jones := by decide

def noName : Int → Option Nat := fun n => some n.natAbs

/-- Four calls in a row. -/
def sampleCalls : List Call :=
  [.ants (.str "number".toList), .freqs (.str "number".toList) (.str "freq".toList) none, .times (.idx [1, 0]), .jones (.str "-name".toList)]

def sampleSorted : Cal ℚ Nat where
  wide := false
  ants := [3, 5]
  freqs := [1, 4, 5]
  widths := [2, 3, 1]
  ids := [3, 7, 7]
  ranges := []
  spws := [3, 7]
  flexJones := some [-6, -5]
  times := ⟨some [1, 2], none, some [10, 20], none, some [0, 1], none, [30, 60]⟩
  jones := [0]
  main := [[[[222], [221]], [[232], [231]], [[212], [211]]], [[[122], [121]], [[132], [131]], [[112], [111]]]]
  flags := [[[[false], [true]], [[true], [true]], [[false], [false]]], [[[false], [false]], [[false], [true]], [[false], [true]]]]
  quality := none
  total := some [[[4], [3]], [[6], [5]], [[2], [1]]]

theorem sample_calls : calls sorts noName noName sample sampleCalls = .ok sampleSorted := by decide +kernel

example : Good sampleSorted ∧ SameSolutions sample sampleSorted :=
  reorder_keeps_solutions sorts noName noName sampleCalls sample_good sample_distinct sample_calls

example (c' : Cal ℚ Nat) (h : reorderAnts sorts noName sample (.str "-name".toList) = .ok c') :
    Attained noName (.str "-name".toList) [5, 3] c'.ants := reorder_antennas_order sorts noName _ h

example : (reorderAnts sorts noName sample (.str "name".toList)).map (·.ants) = .ok [3, 5] := by decide +kernel

/-- A wide-band object with three windows. -/
def wideSample : Cal ℚ Nat where
  wide := true
  ants := [0]
  freqs := []
  widths := []
  ids := []
  ranges := [(5, 7), (1, 3), (8, 9)]
  spws := [2, 9, 4]
  flexJones := some [-5, -6, -7]
  times := ⟨none, some [(3, 4), (1, 2)], none, none, none, none, [60, 30]⟩
  jones := [0]
  main := [[[[11], [12]], [[21], [22]], [[31], [32]]]]
  flags := [[[[true], [false]], [[false], [false]], [[true], [false]]]]
  quality := some [[[[1], [2]], [[3], [4]], [[5], [6]]]]
  total := none

theorem wideSample_good : Good wideSample where
  chans := fun h => by cases h
  wides := fun _ => ⟨rfl, by decide⟩
  flex := fun l h => by cases h; rfl
  time := fun l h => by cases h
  timeRange := fun l h => by cases h; rfl
  lst := fun l h => by cases h
  lstRange := fun l h => by cases h
  center := fun l h => by cases h
  ref := fun l h => by cases h
  main := by unfold Shape4 Shape3; decide
  flags := by unfold Shape4 Shape3; decide
  quality := fun l h => by cases h; unfold Shape4 Shape3; decide
  total := fun l h => by cases h

example : (reorderFreqs sorts wideSample (.str "-freq".toList) .none none).map (·.spws) = .ok [4, 2, 9] := by decide +kernel
example : (reorderFreqs sorts wideSample (.str "-freq".toList) .none none).map (·.flexJones) = .ok (some [-7, -5, -6]) := by decide +kernel
example : (reorderFreqs sorts wideSample (.str "-freq".toList) .none none).map (·.main) =
    .ok [[[[31], [32]], [[11], [12]], [[21], [22]]]] := by decide +kernel
example : (reorderTimes sorts wideSample (.str "time".toList)).map (·.quality) =
    .ok (some [[[[2], [1]], [[4], [3]], [[6], [5]]]]) := by decide +kernel

/-- A single channel in a single window: arguments that make no sense are accepted, with a warning only. -/
example : (match reorderFreqs sorts { sample with freqs := [5], widths := [1], ids := [7], spws := [7], flexJones := none } (.idx [9])
    (.str "rubbish".toList) none with | .ok c => some c.freqs | .error _ => none) = some [5] := by decide +kernel

example : calls sorts noName noName sample [.times (.idx [0])] = .error .index := by decide +kernel

end Verif.CalSort
