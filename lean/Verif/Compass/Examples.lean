import Verif.Compass.Cal
import Mathlib.Analysis.Complex.Norm
import Mathlib.Data.Rat.Floor

/-!
# Examples: COMPASS solutions
-/

namespace Verif.Compass

-- the absolute value of complex numbers is as it is assumed
example : ∀ g : ℂ, ((‖g * g‖ : ℝ) : ℂ) = g * star g := by
  intro g
  rw [Complex.norm_mul, ← sq, ← Complex.normSq_eq_norm_sq]
  exact (Complex.mul_conj g).symm

/-- Numbers that are their own conjugates. -/
local instance : StarRing ℚ := starRingOfComm

/-- Two antennas, two receivers, four channels; the gain of the second antenna is missing in channel 2, its SEFD is zero in channel 3. -/
def file : File ℚ ℚ where
  ants := [4, 6]
  cols := [⟨0, 0, 1, 2⟩, ⟨1, 1, 1, 2⟩]
  gain i j k := if i = 1 ∧ k = 2 then none else some (i + 2 * j + 1)
  sefd i j k := if i = 1 ∧ k = 3 then some 0 else some (i + j + 1)
  mjd := [50000, 50001]
  bls := [(4, 6)]
  flagArr t _ c _ := if t = 0 then 64 else if c = 0 then 128 else 0
  sflag i _ _ := if i = 0 then 32 else 16

def ints : List (Nat × ℚ) := [(11, 50000 + 1 / 864000), (12, 50003)]

def par : Rec := ⟨100, 11, ⟨4, 0, 6, 0, 1, 2⟩⟩
def par' : Rec := ⟨101, 12, ⟨4, 0, 6, 0, 1, 2⟩⟩
def cro : Rec := ⟨102, 12, ⟨4, 0, 6, 1, 1, 2⟩⟩
def vis : Vis ℚ ℚ := ⟨fun k => 10 * k + 10, fun _ => false, fun _ => 8⟩

theorem plain : Plain file := ⟨by decide, by decide⟩

theorem has1 : Has file 4 0 1 2 0 0 := ⟨rfl, _, rfl, rfl, rfl, rfl⟩
theorem has2 : Has file 6 0 1 2 1 0 := ⟨rfl, _, rfl, rfl, rfl, rfl⟩
theorem has3 : Has file 6 1 1 2 1 1 := ⟨rfl, _, rfl, rfl, rfl, rfl⟩

theorem records : Records [par, par', cro] := ⟨by decide, by decide⟩

-- gains 1 and 2, SEFDs 1 and 2
example : ((List.range 4).map fun k => (calibrate id file ints [par, par', cro] false true par vis).data k) = [5, 10, 0, 20] := by decide +kernel
example : ((List.range 4).map fun k => (calibrate id file ints [par, par', cro] false true par vis).fl k) = [false, false, true, true] := by decide +kernel
example : ((List.range 4).map fun k => (calibrate id file ints [par, par', cro] false true par vis).w k) = [2, 2, 2, 0] := by decide +kernel
example := calibrated_partial id (fun _ => rfl) file plain ints [par, par', cro] par vis has1 has2 (Or.inl rfl)

-- all cross hands: gains 1 and 4
example : ((List.range 4).map fun k => (calibrate id file ints [cro] false true cro vis).data k) = [10 / 4, 20 / 4, 0, 40 / 4] := by decide +kernel
example := calibrated_partial id (fun _ => rfl) file plain ints [cro] cro vis has1 has3 (Or.inr (by decide))

-- the same with one parallel hand
example : ((List.range 4).map fun k => (calibrate id file ints [par, cro] false true cro vis).fl k) = [true, true, true, true] := by decide +kernel
example := mixed_counterexample id file ints [par, cro] cro par vis (by decide) (by decide) (by decide)
example := unknown_flagged id file ints [par] ⟨103, 11, ⟨4, 0, 7, 0, 1, 2⟩⟩ vis (Or.inr (by
  rintro i j ⟨h, -⟩
  have h1 : i < 2 := (List.getElem?_eq_some_iff.1 h).1
  match i, h1 with
  | 0, _ => cases h
  | 1, _ => cases h))

-- flags of the record, from byte 64: channel 1
example : ((List.range 4).map fun k => (calibrate id file ints [par, par', cro] true false par vis).fl k) = [false, true, false, false] := by decide +kernel
-- flags of the antennas: channels 2 and 3
example : ((List.range 4).map fun k => (calibrate id file ints [par, par', cro] true false par' vis).fl k) = [false, false, true, true] := by decide +kernel
-- cross hands have none
example : ((List.range 4).map fun k => (calibrate id file ints [par, par', cro] true false cro vis).fl k) = [false, false, false, false] := by decide +kernel

theorem int0 : integration ints 50000 = some 11 := by decide +kernel
theorem int1 : integration ints 50001 = none := by decide +kernel

example := record_flags id file ints [par, par', cro] records par (by decide) vis 0 0 0 ⟨⟨50000, rfl, int0⟩, rfl, rfl⟩ (by
  rintro t b c ⟨⟨x, hx, hi⟩, hb, hc⟩
  have h1 : t < 2 := (List.getElem?_eq_some_iff.1 hx).1
  have h2 : b < 1 := (List.getElem?_eq_some_iff.1 hb).1
  have h3 : c < 2 := (List.getElem?_eq_some_iff.1 hc).1
  refine ⟨?_, by omega, ?_⟩
  · match t, h1 with
    | 0, _ => rfl
    | 1, _ => cases hx; rw [int1] at hi; cases hi
  · match c, h3 with
    | 0, _ => rfl
    | 1, _ => cases hc)

theorem noFlags (r : Rec) (hr : r.inhid = 12) (t b c : Nat) : ¬ FlagAt file ints r t b c := by
  rintro ⟨⟨x, hx, hi⟩, -, -⟩
  have h1 : t < 2 := (List.getElem?_eq_some_iff.1 hx).1
  match t, h1 with
  | 0, _ => cases hx; rw [int0, hr] at hi; cases hi
  | 1, _ => cases hx; rw [int1] at hi; cases hi

example := static_flags_partial id file plain ints [par, par', cro] records par' (by decide) vis (noFlags par' rfl) has1 has2 (Or.inl rfl)
example := static_flags_counterexample id file ints [par, par', cro] records cro par (by decide) vis (noFlags cro rfl) (by decide) (by decide) (by decide)

end Verif.Compass
