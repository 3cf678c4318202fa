import Verif.MirShift.Doppler
import Mathlib.Data.Rat.Floor

/-!
# Examples: shifting spectra
-/

namespace Verif.MirShift

/-- Six channels of a ramp, one flagged. -/
def spec : List (Chan ℚ ℚ) := [⟨10, false, 1⟩, ⟨20, false, 2⟩, ⟨30, false, 3⟩, ⟨40, false, 4⟩, ⟨50, false, 5⟩, ⟨60, true, 6⟩]

-- whole channels, both ways
example : shift (2, none) true spec = some [⟨0, true, 0⟩, ⟨0, true, 0⟩, ⟨10, false, 1⟩, ⟨20, false, 2⟩, ⟨30, false, 3⟩, ⟨40, false, 4⟩] := by
  decide +kernel
example : shift (-1, none) true spec = some [⟨20, false, 2⟩, ⟨30, false, 3⟩, ⟨40, false, 4⟩, ⟨50, false, 5⟩, ⟨60, true, 6⟩, ⟨0, true, 0⟩] := by
  decide +kernel
-- further than the band
example : shift (9, none) true spec = some (List.replicate 6 ⟨0, true, 0⟩) := by decide +kernel

-- the kernels
example : genKernel (13 / 10 : ℚ) .linear (-1 / 2) (1 / 1000) = some (1, some [7 / 10, 3 / 10]) := by decide +kernel
example : genKernel (14 / 10 : ℚ) .cubic (-1 / 2) (1 / 1000) = some (1, some [-6 / 125, 53 / 125, 87 / 125, -9 / 125]) := by decide +kernel
example : genKernel (-7 / 10 : ℚ) .nearest (-1 / 2) 0 = some (-1, none) := by decide +kernel
example : genKernel (9999 / 10000 : ℚ) .linear (-1 / 2) (1 / 1000) = some (1, none) := by decide +kernel
example : genKernel (1 : ℚ) .linear (-1 / 2) (6 / 10) = none := by decide +kernel

-- a linear shift by 1.3 puts the ramp 13 lower; the flagged channel takes one neighbour with it
example : shift (1, some [7 / 10, 3 / 10]) true spec =
    some [⟨0, true, 0⟩, ⟨0, true, 0⟩, ⟨17, false, 17 / 10⟩, ⟨27, false, 27 / 10⟩, ⟨37, false, 37 / 10⟩, ⟨47, false, 47 / 10⟩] := by decide +kernel
example : shift (-1, some [7 / 10, 3 / 10]) true spec =
    some [⟨17, false, 17 / 10⟩, ⟨27, false, 27 / 10⟩, ⟨37, false, 37 / 10⟩, ⟨47, false, 47 / 10⟩, ⟨0, true, 0⟩, ⟨0, true, 0⟩] := by decide +kernel

/-- Eight channels of a ramp. -/
def ramp : List (Chan ℚ ℚ) := (List.range 8).map fun (k : Nat) => ⟨10 * k, false, 1⟩

-- a cubic shift by 1.4 moves the ramp by 1.6: channel 3 should be 16 and is 14
example : (shift (1, some [-6 / 125, 53 / 125, 87 / 125, -9 / 125]) true ramp).bind (·[3]?) = some ⟨14, false, 1⟩ := by decide +kernel
-- a shift by a half is right
example : (shift (1, some (cubicKernel (-1 / 2) (1 / 2))) true ramp).bind (·[3]?) = some ⟨15, false, 1⟩ := by decide +kernel
-- without flagging of neighbours the flag of the spectrum is gone, and the zero in its place is mixed in
example : shift (0, some [7 / 10, 3 / 10]) false spec =
    some [⟨0, true, 0⟩, ⟨17, false, 17 / 10⟩, ⟨27, false, 27 / 10⟩, ⟨37, false, 37 / 10⟩, ⟨47, false, 47 / 10⟩, ⟨15, false, 15 / 10⟩] := by
  decide +kernel

-- hypotheses of the theorems can be met
example : ∃ out, shift (1, some (cubicKernel (-1 / 2) (4 / 10))) true ramp = some out ∧
    ∀ k < ramp.length, 0 ≤ (k : Int) - ⌊(14 / 10 : ℚ)⌋ - 2 → (k : Int) - ⌊(14 / 10 : ℚ)⌋ + 1 < ramp.length →
      ∃ ch, out[k]? = some ch ∧ ch.fl = false ∧ ch.v = 0 + ((k : ℚ) - (2 * ⌊(14 / 10 : ℚ)⌋ + 1 - 14 / 10)) • 10 ∧
        (ch.v = 0 + ((k : ℚ) - 14 / 10) • 10 ↔ (14 / 10 : ℚ) = ⌊(14 / 10 : ℚ)⌋ + 1 / 2 ∨ (10 : ℚ) = 0) :=
  cubic_ramp_counterexample (14 / 10) (1 / 1000) 1 _ (by decide +kernel) true ramp (by decide) 0 10 (by
    intro p ch h
    simp only [ramp, List.getElem?_map, Option.map_eq_some_iff] at h
    obtain ⟨k, hk, rfl⟩ := h
    obtain ⟨-, rfl⟩ := List.getElem?_eq_some_iff.1 hk
    simp [mul_comm])
example : (2 + (-1 : Int).natAbs ≤ spec.length) ∧ genKernel (-7 / 10 : ℚ) .linear (-1 / 2) (1 / 1000) = some (-1, some [7 / 10, 3 / 10]) := by
  constructor
  · decide
  · decide +kernel

-- two records with their own shifts: down one channel of 2 MHz, and up one channel of -4 MHz
example : redoppler [2 / 1000, 4 / 1000] [2, -4] .cubic (1 / 1000) true [(7, spec), (9, spec)] =
    some [(7, [⟨20, false, 2⟩, ⟨30, false, 3⟩, ⟨40, false, 4⟩, ⟨50, false, 5⟩, ⟨60, true, 6⟩, ⟨0, true, 0⟩]),
      (9, [⟨0, true, 0⟩, ⟨10, false, 1⟩, ⟨20, false, 2⟩, ⟨30, false, 3⟩, ⟨40, false, 4⟩, ⟨50, false, 5⟩])] := by decide +kernel
example : ∃ m : Int, (4 / 1000 : ℚ) = m * (-4 / 1000) := ⟨-1, by norm_num⟩

end Verif.MirShift
