import Verif.Check.Props
import Mathlib.Algebra.Order.Ring.Rat
import Mathlib.Data.Rat.Defs

/-! Objects that pass and do not pass, and the ways in which the check is not what one expects. -/

namespace Verif.Check

/-- An absolute value where there is a rational one. -/
def exMag (z : ℚ × ℚ) : ℚ :=
  if z.2 = 0 then |z.1| else if z.1 = 0 then |z.2| else if z = (3, 4) ∨ z = (3, -4) then 5 else 1

/-- Antennas 5 and 8; rows are the autocorrelation of 5 and the baseline (5, 8), at one time; one channel, two
polarizations. -/
def exObj (uvw : Nat → Nat → ℚ) (pols : List Int) (data : Option (Nat → Nat → Nat → ℚ × ℚ)) : Obj ℚ :=
  { nants := 2, nbls := 2, ntimes := 1, npols := 2, nf := 1, ant1 := [5, 5], ant2 := [5, 8], bl := [1, 2],
    time := [10, 10], centers := [0, 0], cat := [0], rect := true, timeFaster := false, spws := [1], flexId := [1],
    flexPol := none, pols := pols, tel := [5, 8, 9], uncalib := false, polConv := false, uvw := uvw, data := data }

/-- The autocorrelation is 3 + 4i for the first polarization and 2i for the second. -/
def exData (r _f p : Nat) : ℚ × ℚ := if r = 0 then (if p = 0 then (3, 4) else (0, 2)) else (1, 7)

def exUvw (r c : Nat) : ℚ := if r = 1 ∧ c = 0 then 14 else 0

/-- Expected baseline vectors; tolerance 1. -/
def exCheck (op : Opts) (o : Obj ℚ) : Obj ℚ × Option Err := check true 0 1 (1 / 100) exUvw exMag op o

structure View where
  uvw : List (List ℚ)
  data : Option (List (List (ℚ × ℚ)))
  err : Option Err
deriving DecidableEq

def view (z : Obj ℚ × Option Err) : View :=
  ⟨(rows z.1).map (fun r => [0, 1, 2].map (z.1.uvw r)),
   z.1.data.map (fun d => (rows z.1).map (fun r => (List.range z.1.npols).map (d r 0))), z.2⟩

def ofErr (op : Opts) (o : Obj ℚ) : Option Err := (exCheck op o).2

/-- The options with which files are read: autocorrelations are checked and changed. -/
def opRead : Opts := ⟨true, false, false, true, true⟩
def opCheck : Opts := ⟨true, false, false, true, false⟩
def opFlip : Opts := ⟨true, true, true, true, true⟩

/-- xx and xy. -/
def exA : Obj ℚ := exObj exUvw [-5, -7] (some exData)

theorem exA_shaped : Shaped exA := by
  refine ⟨rfl, rfl, rfl, ?_, by decide⟩
  intro l h
  simp [exA, exObj] at h

/-- xx is made real, xy is left; without the permission the object is refused. -/
example : view (exCheck opRead exA) = ⟨[[0, 0, 0], [14, 0, 0]], some [[(5, 0), (0, 2)], [(1, 7), (1, 7)]], none⟩ ∧
    view (exCheck opCheck exA) = ⟨[[0, 0, 0], [14, 0, 0]], some [[(3, 4), (0, 2)], [(1, 7), (1, 7)]], some .autoImag⟩ := by
  decide +kernel

/-- `passes_iff`, `passed`, `real_after` and `again` have something to say. -/
example : Shaped exA ∧ (exCheck opRead exA).2 = none ∧ ¬ AutosReal exA ∧ AutosReal (exCheck opRead exA).1 ∧
    exCheck opRead (exCheck opRead exA).1 = ((exCheck opRead exA).1, none) := by
  have hp : (exCheck opRead exA).2 = none := by decide +kernel
  have h : exCheck opRead exA = ((exCheck opRead exA).1, none) := Prod.ext rfl hp
  refine ⟨exA_shaped, hp, ?_, ?_, ?_⟩
  · intro ha
    have := ha exData rfl 0 0 0 (-5) ⟨5, rfl, rfl⟩ (by decide) (by decide) rfl (by simp [RealPol])
    revert this
    decide +kernel
  · exact real_after true 0 1 (1 / 100) exUvw exMag opRead exA _ exA_shaped h rfl rfl
  · exact again true 0 1 (1 / 100) exUvw exMag opRead exA _ exA_shaped h

/-- The absolute values used for `exA` are absolute values. -/
example : ∀ r < 2, ∀ p < 2, ∀ b, r = 0 → 0 ≤ exMag (turn b (exData r 0 p)) ∧
    exMag (turn b (exData r 0 p)) * exMag (turn b (exData r 0 p)) =
      (exData r 0 p).1 * (exData r 0 p).1 + (exData r 0 p).2 * (exData r 0 p).2 := by
  decide +kernel

def exB : Obj ℚ := exObj (fun r c => -exUvw r c) [-5, -7] (some exData)

/-- Opposite vectors: turned, together with the visibilities, if that is allowed. -/
example : view (exCheck opFlip exB) = ⟨[[0, 0, 0], [14, 0, 0]], some [[(5, 0), (0, -2)], [(1, -7), (1, -7)]], none⟩ ∧
    view (exCheck { opFlip with flip := false } exB) =
      ⟨[[0, 0, 0], [-14, 0, 0]], some [[(3, 4), (0, 2)], [(1, 7), (1, 7)]], some .uvw⟩ ∧
    view (exCheck opRead exB) =
      ⟨[[0, 0, 0], [-14, 0, 0]], some [[(5, 0), (0, 2)], [(1, 7), (1, 7)]], none⟩ := by
  decide +kernel

/-- The other errors. -/
example : ofErr opRead { exA with nants := 3 } = some .nants ∧ ofErr opRead { exA with nbls := 1 } = some .nbls ∧
    ofErr opRead { exA with ntimes := 2 } = some .ntimes ∧ ofErr opRead { exA with cat := [1] } = some .center ∧
    ofErr opRead { exA with flexId := [0] } = some .spw ∧ ofErr opRead { exA with pols := [0, -5] } = some .zeroPol ∧
    ofErr opRead { exA with tel := [5] } = some .ant2 ∧ ofErr opRead { exA with tel := [8] } = some .ant1 ∧
    ofErr opRead { exA with timeFaster := true, rect := false } = some .fasterNotRect ∧
    ofErr opRead { exA with uncalib := true, polConv := true } = some .polConv ∧
    ofErr opRead { exA with uvw := fun _ _ => 0 } = some .crossUvw ∧
    ofErr opRead { exA with uvw := fun _ _ => 1 } = some .autoUvw := by
  decide +kernel

/-- C145: numbers of baselines that do not belong to the antennas are accepted, e.g. two numbers for one pair and no
number of their own for others. -/
theorem baselines_counterexample : ∃ o : Obj ℚ, Shaped o ∧ (exCheck opRead o).2 = none ∧
    (∃ r s : Nat, r < s ∧ s < o.bl.length ∧ o.ant1[r]? = o.ant1[s]? ∧ o.ant2[r]? = o.ant2[s]? ∧ o.bl[r]? ≠ o.bl[s]?) := by
  refine ⟨{ exA with ant2 := [8, 8], uvw := fun _ c => if c = 0 then 14 else 0 }, ?_, by decide +kernel, 0, 1, by decide⟩
  exact ⟨rfl, rfl, rfl, fun l h => by simp [exA, exObj] at h, by decide⟩

/-- C145: whether the rows are a grid is not checked: here it is stated, with the autocorrelation at one time and the
baseline at two. -/
theorem rect_counterexample : ∃ o : Obj ℚ, Shaped o ∧ (exCheck opRead o).2 = none ∧ o.rect = true ∧
    o.ant1.length ≠ o.nbls * o.ntimes := by
  refine ⟨{ exA with ant1 := [5, 5, 5], ant2 := [5, 8, 8], bl := [1, 2, 2], time := [10, 10, 11], ntimes := 2,
                     centers := [0, 0, 0],
                     uvw := fun r c => if 1 ≤ r ∧ c = 0 then 14 else 0 }, ?_, by decide +kernel, rfl, by decide⟩
  exact ⟨rfl, rfl, rfl, fun l h => by simp [exA, exObj] at h, by decide⟩

/-- C147: a check that fails has already turned the object. -/
theorem turned_counterexample : ∃ o : Obj ℚ, Shaped o ∧ (exCheck opFlip o).2 = some .autoUvw ∧
    (exCheck opFlip o).1.uvw 1 0 = -o.uvw 1 0 ∧ o.uvw 1 0 ≠ 0 := by
  refine ⟨exObj (fun r c => if r = 1 ∧ c = 0 then -14 else 1 / 2) [-5, -7] (some exData), ?_, by decide +kernel,
    by decide +kernel, by decide +kernel⟩
  exact ⟨rfl, rfl, rfl, fun l h => by simp [exObj] at h, by decide⟩

/-- C147: an object without data cannot be turned: there is an error, and the baseline vectors have changed. -/
theorem nodata_counterexample : ∃ o : Obj ℚ, Shaped o ∧ o.data = none ∧ (exCheck opFlip o).2 = some .noData ∧
    (exCheck opFlip o).1.uvw 1 0 = -o.uvw 1 0 ∧ o.uvw 1 0 ≠ 0 := by
  refine ⟨exObj (fun r c => -exUvw r c) [-5, -7] none, ?_, rfl, by decide +kernel, by decide +kernel, by decide +kernel⟩
  exact ⟨rfl, rfl, rfl, fun l h => by simp [exObj] at h, by decide⟩

/-- C146: Stokes Q of an autocorrelation may be negative.  It becomes positive, though it is real, if another value
(here Stokes I) is not. -/
theorem negative_counterexample : ∃ (o : Obj ℚ), Shaped o ∧ (exCheck opRead o).2 = none ∧
    o.data.map (fun d => d 0 0 1) = some (-2, 0) ∧ (exCheck opRead o).1.data.map (fun d => d 0 0 1) = some (2, 0) := by
  refine ⟨exObj exUvw [1, 2] (some (fun r _ p => if r = 0 then (if p = 0 then (3, 4) else (-2, 0)) else (1, 7))), ?_,
    by decide +kernel, by decide +kernel, by decide +kernel⟩
  exact ⟨rfl, rfl, rfl, fun l h => by simp [exObj] at h, by decide⟩

/-- One position on the polarization axis, polarizations by window: xy in window 2 and xx in window 1. -/
def exFlex : Obj ℚ :=
  { exObj exUvw [0] (some (fun r f _ => if r = 0 then (if f = 0 then (3, 0) else (3, 4)) else (1, 7))) with
    npols := 1, nf := 2, spws := [2, 1], flexId := [1, 2], flexPol := some [-7, -5] }

theorem exFlex_shaped : Shaped exFlex := by
  refine ⟨rfl, rfl, rfl, ?_, by decide⟩
  intro l h
  simp only [exFlex, Option.some.injEq] at h
  subst h
  rfl

/-- Which channels have real autocorrelations is seen for objects with a polarization for each window. -/
example : (exCheck opCheck exFlex).2 = none ∧
    (exCheck opCheck { exFlex with flexPol := some [-5, -7] }).2 = some .autoImag := by decide +kernel

/-- C146: such an object cannot be read if an autocorrelation is not real, though it is asked to make it real: there is
a `KeyError`. -/
theorem flexpol_counterexample : ∃ o : Obj ℚ, Shaped o ∧ (exCheck opRead o).2 = some .key := by
  refine ⟨{ exFlex with flexPol := some [-5, -7] }, ?_, by decide +kernel⟩
  refine ⟨rfl, rfl, rfl, ?_, by decide⟩
  intro l h
  simp only [Option.some.injEq] at h
  subst h
  rfl

end Verif.Check
