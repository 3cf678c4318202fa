import Verif.FreqAvg.Props
import Mathlib.Algebra.Order.Ring.Rat
import Mathlib.Algebra.Field.Rat
import Mathlib.Algebra.Module.Rat

/-! # Frequency averaging: cases that meet the hypotheses, and cases where the full claim is false -/
namespace Verif.FreqAvg

/-- A channel with one cell. -/
def chan (freq width : ℚ) (spw : Int) (d : ℚ) (f : Bool) (n : ℚ) : Chan ℚ ℚ Unit := ⟨freq, width, spw, fun _ => d, fun _ => f, fun _ => n⟩

structure Seen where
  freq : ℚ
  width : ℚ
  spw : Int
  data : ℚ
  flag : Bool
  nsample : ℚ
deriving DecidableEq

def sees (h : Chan ℚ ℚ Unit) : Seen := ⟨h.freq, h.width, h.spw, h.data (), h.flag (), h.nsample ()⟩

def seesAll : Except Err (List (Chan ℚ ℚ Unit)) → Except Err (List Seen)
  | .ok l => .ok (l.map sees)
  | .error e => .error e

def outcome : Except Err (List Seen) → Option (List Seen)
  | .ok l => some l
  | .error _ => none

def five : List (Chan ℚ ℚ Unit) :=
  [chan 1 1 0 2 false 1, chan 2 1 0 4 true 1, chan 3 1 0 6 true 1, chan 4 1 0 8 true 3, chan 5 1 0 9 false 1]

example : outcome (seesAll (frequencyAverage 2 [()] false false true true [0] five)) =
    some [⟨3 / 2, 2, 0, 2, false, 1 / 2⟩, ⟨7 / 2, 2, 0, 15 / 2, true, 2⟩, ⟨5, 1, 0, 9, false, 1⟩] := by decide +kernel

example : outcome (seesAll (frequencyAverage 2 [()] true true true false [0] five)) =
    some [⟨3 / 2, 2, 0, 2, true, 1 / 2⟩, ⟨7 / 2, 2, 0, 14, true, 2⟩] := by decide +kernel

/-- Two windows of two channels each; the second is flagged. -/
def twins : List (Chan ℚ ℚ Unit) := [chan 1 1 0 2 false 1, chan 2 1 0 4 false 1, chan 3 1 1 6 true 1, chan 4 1 1 8 true 1]

/-- **C39.** The full claim is false: averaging two windows of two channels by two fails if the second is flagged. -/
theorem frequencyAverage_error_counterexample : frequencyAverage 2 [()] false false true true [0, 1] twins = .error .indexError :=
  frequencyAverage_fails (by decide) (by decide +kernel) (ci := 0) (by decide +kernel) (c := ()) (by simp) (by decide +kernel)

/-- Two windows of two and six channels; the middle pair of the second window is flagged. -/
def uneven : List (Chan ℚ ℚ Unit) :=
  [chan 1 1 0 2 false 1, chan 2 1 0 4 false 1, chan 3 1 1 6 false 1, chan 4 1 1 6 false 1, chan 5 1 1 8 true 1, chan 6 1 1 8 true 1,
    chan 7 1 1 9 false 1, chan 8 1 1 9 false 1]

/-- **C39.** The full claim is false: two flagged visibilities of 8 average to 0 in a later window, and to 8 in the first. -/
theorem frequencyAverage_data_counterexample :
    outcome (seesAll (frequencyAverage 2 [()] false false true true [0, 1] uneven)) =
      some [⟨3 / 2, 2, 0, 3, false, 1⟩, ⟨7 / 2, 2, 1, 6, false, 1⟩, ⟨11 / 2, 2, 1, 0, true, 0⟩, ⟨15 / 2, 2, 1, 9, false, 1⟩] ∧
    outcome (seesAll (frequencyAverage 2 [()] false false true true [1, 0] uneven)) =
      some [⟨7 / 2, 2, 1, 6, false, 1⟩, ⟨11 / 2, 2, 1, 8, true, 1⟩, ⟨15 / 2, 2, 1, 9, false, 1⟩, ⟨3 / 2, 2, 0, 3, false, 1⟩] := by
  decide +kernel

end Verif.FreqAvg
