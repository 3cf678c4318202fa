import Verif.Calib.Undo
import Mathlib.Algebra.Order.Ring.Rat
import Mathlib.Algebra.Field.Rat
import Mathlib.Algebra.Module.Rat

/-! Concrete cases, and cases where the claims fail. -/
namespace Verif.Calib
open Verif.AntPair (IsRowsOf rowsWhere rowsWhere_spec)
open Verif.Np
open Verif.Pol (Str)
deriving instance DecidableEq for Except

/-- The exact numbers of the examples. -/
def exE : Env ℚ ℚ := ⟨id, fun x => decide (x = 0), 0, 0⟩

/-! ### Three antennas, two times, two of three channels, feeds in different orientations -/

/-- Pairs (0, 1) and (0, 2) at two times. -/
def exB : AntPair.Obj := ⟨[0, 0, 0, 0], [1, 2, 1, 2], [65537, 65538, 65537, 65538], 2, 2, 3, true, false⟩

def exD : Dat ℚ ℚ where
  blts := exB
  tel := ⟨[0, 1, 2], [['a'], ['b'], ['c']]⟩
  xo := some ['e', 'a', 's', 't']
  times := [0, 0, 2, 2]
  freqs := [100, 300]
  pols := [-5, -7]
  vis := fun r ch k => (1 + r + 10 * ch + 100 * k : Nat)
  flag := fun r _ _ => decide (r = 3)
  units := ['u', 'n', 'c', 'a', 'l', 'i', 'b']
  conv := none

/-- Antenna "c" has no solutions; the antennas have other numbers, and x is north. -/
def exC : Cal ℚ ℚ where
  tel := ⟨[7, 8], [['b'], ['a']]⟩
  ants := [8, 7]
  jones := [-5, -6]
  xo := some ['n']
  freqs := [100, 200, 300]
  ids := [0, 0, 0]
  times := [0, 1, 2]
  ranges := none
  gain := fun a f t j => (1 + a + 2 * f + 6 * t + 18 * j : Nat)
  gflag := fun a f t _ => decide (a = 1 ∧ f = 0 ∧ t = 2)
  mult := false
  scale := some ['J', 'y']
  conv := some .sum

def exO : Opts := { antCheck := false, uvd := some .avg }

theorem exB_numbered : AntPair.Numbered exB := ⟨false, by decide +kernel⟩

theorem exB_laidOut : AntPair.LaidOut exB := fun _ =>
  ⟨by decide, by decide, [65537, 65538], by decide, by decide, by decide⟩

theorem exD_ok : exD.Ok where
  numbered := exB_numbered
  laidOut := exB_laidOut
  tel := ⟨by decide, by decide, by decide⟩
  times := by decide
  pols := by decide
  xo := by
    intro s hs
    have : s = ['e', 'a', 's', 't'] := by simpa [exD] using hs.symm
    subst this
    exact Or.inl (by unfold East; decide +kernel)

theorem exC_ok : exC.Ok where
  tel := ⟨by decide, by decide, by decide⟩
  ants := by decide
  jones := by decide
  xo := by
    intro s hs
    have : s = ['n'] := by simpa [exC] using hs.symm
    subst this
    exact Or.inr (by unfold North; decide +kernel)

theorem exD_full : FullInOrder exD := by
  intro a b l hl hne
  obtain ⟨i, hi⟩ := List.exists_mem_of_ne_nil _ hne
  obtain ⟨h1, h2⟩ := (hl.2 i).1 hi
  have hab : (a = 0 ∧ b = 1) ∨ (a = 0 ∧ b = 2) := by
    match i, h1, h2 with
    | 0, h1, h2 => simp [exD, exB] at h1 h2; omega
    | 1, h1, h2 => simp [exD, exB] at h1 h2; omega
    | 2, h1, h2 => simp [exD, exB] at h1 h2; omega
    | 3, h1, h2 => simp [exD, exB] at h1 h2; omega
    | n + 4, h1, _ => simp [exD, exB] at h1
  rcases hab with ⟨rfl, rfl⟩ | ⟨rfl, rfl⟩
  · have := rows_unique _ _ _ _ _ hl (rowsWhere_spec exB (by decide) 0 1)
    rw [this]; decide +kernel
  · have := rows_unique _ _ _ _ _ hl (rowsWhere_spec exB (by decide) 0 2)
    rw [this]; decide +kernel

theorem exD_times : TimesInOrder exE exC exD := fun _ _ =>
  ⟨by decide, by unfold Spaced; decide +kernel, by unfold Spaced; decide +kernel, exD_full⟩

example : exD.Ok ∧ exC.Ok ∧ 0 ≤ exE.tolT ∧ 0 ≤ exE.tolF ∧ Spaced exE.tolF exC.freqs ∧ Spaced exE.tolF exD.freqs ∧ exC.freqs ≠ [] ∧
    TimesInOrder exE exC exD ∧ (calibrate exE exO exC exD).2 = none ∧ Cell exD 2 1 1 ∧ Solution exD exC 0 0 ∧ Solution exD exC 1 1 :=
  ⟨exD_ok, exC_ok, by decide +kernel, by decide +kernel, by unfold Spaced; decide +kernel, by unfold Spaced; decide +kernel, by decide, exD_times,
    by decide +kernel, ⟨by decide, by decide, by decide⟩, ⟨['a'], 8, ⟨0, rfl, rfl⟩, rfl, 1, rfl, rfl⟩,
    ⟨['b'], 7, ⟨1, rfl, rfl⟩, rfl, 0, rfl, rfl⟩⟩

/-- Row 2 (time 2), channel 1 (frequency 300), polarization -7: east feed of "a" (Jones -6), north feed of "b" (Jones -5). -/
example : (calibrate exE exO exC exD).1.vis 2 1 1 = (113 : ℚ) / (35 * 18) * 2 ∧ exC.gain 0 2 2 1 = 35 ∧ exC.gain 1 2 2 0 = 18 := by
  decide +kernel

example : (calibrate exE exO exC exD).1.flag 2 0 1 = true ∧ (calibrate exE exO exC exD).1.vis 2 0 1 = 206 ∧ exD.vis 2 0 1 = 103 := by
  decide +kernel

/-- No solution for antenna "c". -/
example : (¬ ∃ a, Solution exD exC 2 a) ∧ (calibrate exE exO exC exD).1.flag 1 0 0 = true := by
  refine ⟨?_, by decide +kernel⟩
  rintro ⟨a, s, m, ⟨i, h1, h2⟩, _, j, h3, h4⟩
  have hs : s = ['c'] := by
    match i, h1, h2 with
    | 0, h1, _ => simp [exD] at h1
    | 1, h1, _ => simp [exD] at h1
    | 2, _, h2 => simpa [exD] using h2.symm
    | n + 3, h1, _ => simp [exD] at h1
  subst hs
  match j, h4 with
  | 0, h4 => simp [exC] at h4
  | 1, h4 => simp [exC] at h4
  | n + 2, h4 => simp [exC] at h4

/-- Flags without propagation. -/
example : (calibrate exE { exO with propFlags := false } exC exD).2 = none ∧
    (calibrate exE { exO with propFlags := false } exC exD).1.flag 2 0 1 = false := ⟨by decide +kernel, by decide +kernel⟩

/-- There and back. -/
example : exO.undo = false ∧ (2 : ℚ) ≠ 0 ∧ (calibrate exE exO exC exD).2 = none ∧ exO.propFlags = true ∧ exE.near0 0 = true ∧
    (calibrate exE exO.back exC (calibrate exE exO exC exD).1).2 = none ∧
    (calibrate exE exO.back exC (calibrate exE exO exC exD).1).1.vis 2 1 1 = exD.vis 2 1 1 :=
  ⟨rfl, by decide +kernel, by decide +kernel, rfl, by decide +kernel, by decide +kernel, by decide +kernel⟩

/-- An exception: the calibrated data cannot be calibrated again. -/
example : (calibrate exE exO exC (calibrate exE exO exC exD).1).2 = some .calibrated := by decide +kernel

/-! ### The order of the channels -/

def exB₁ : AntPair.Obj := ⟨[0, 0], [1, 1], [65537, 65537], 1, 2, 2, true, true⟩

/-- The channels go down. -/
def exD₁ : Dat ℚ ℚ where
  blts := exB₁
  tel := ⟨[0, 1], [['a'], ['b']]⟩
  xo := none
  times := [0, 1]
  freqs := [300, 100]
  pols := [-5]
  vis := fun _ _ _ => 36
  flag := fun _ _ _ => false
  units := uncalib
  conv := none

/-- The solutions are given for increasing frequencies. -/
def exC₁ : Cal ℚ ℚ where
  tel := ⟨[0, 1], [['a'], ['b']]⟩
  ants := [0, 1]
  jones := [-5]
  xo := none
  freqs := [100, 300]
  ids := [0, 0]
  times := [0]
  ranges := none
  gain := fun _ f _ _ => if f = 0 then 2 else 3
  gflag := fun _ _ _ _ => false
  mult := false
  scale := none
  conv := none

theorem exD₁_ok : exD₁.Ok where
  numbered := ⟨false, by decide +kernel⟩
  laidOut := fun _ => ⟨by decide, by decide, [65537], by decide, by decide, by decide⟩
  tel := ⟨by decide, by decide, by decide⟩
  times := by decide
  pols := by decide
  xo := by intro s hs; simp [exD₁] at hs

theorem exC₁_ok : exC₁.Ok where
  tel := ⟨by decide, by decide, by decide⟩
  ants := by decide
  jones := by decide
  xo := by intro s hs; simp [exC₁] at hs

/-- Without increasing frequencies the claim is false: frequencies are compared after sorting, but the gains are applied by
position, so each channel gets the gain of the other one. -/
theorem channel_order_counterexample :
    exD₁.Ok ∧ exC₁.Ok ∧ (calibrate exE { timeCheck := false } exC₁ exD₁).2 = none ∧ Cell exD₁ 0 0 0 ∧
      ¬ Calibrated exE { timeCheck := false } exC₁ exD₁ (calibrate exE { timeCheck := false } exC₁ exD₁).1 0 0 0 := by
  refine ⟨exD₁_ok, exC₁_ok, by decide +kernel, ⟨by decide, by decide, by decide⟩, ?_⟩
  intro h
  obtain ⟨j₁, j₂, f, t, _, ⟨x, y, hx, hy, hxy⟩, _, hv⟩ := h 0 1 (-5) 0 1 rfl rfl rfl
    ⟨['a'], 0, ⟨0, rfl, rfl⟩, rfl, 0, rfl, rfl⟩ ⟨['b'], 1, ⟨1, rfl, rfl⟩, rfl, 1, rfl, rfl⟩
  have hx' : x = 300 := by simpa [exD₁] using hx.symm
  subst hx'
  have hf : f ≠ 0 := by
    rintro rfl
    have : y = 100 := by simpa [exC₁] using hy.symm
    subst this
    exact absurd hxy (by decide +kernel)
  have hg : ∀ a f t j, f ≠ 0 → exC₁.gain a f t j = 3 := fun a f t j h => if_neg h
  have := (hv _ _ rfl rfl).1
  rw [hg _ _ _ _ hf, hg _ _ _ _ hf] at this
  have hw : ∀ a f t j, exC₁.gflag a f t j = false := fun _ _ _ _ => rfl
  rw [hw, hw] at this
  exact absurd this (by decide +kernel)

/-! ### The order of the times -/

/-- The rows of the one pair go back in time. -/
def exD₂ : Dat ℚ ℚ := { exD₁ with times := [1, 0], freqs := [100] }

def exC₂ : Cal ℚ ℚ := { exC₁ with times := [0, 1], freqs := [100], ids := [0], gain := fun _ _ t _ => if t = 0 then 2 else 3 }

/-- Rows of a pair that are not in the order of time get the solutions of other times, because the gains are applied by
position. -/
theorem time_order_counterexample :
    exD₂.Ok ∧ exC₂.Ok ∧ (calibrate exE {} exC₂ exD₂).2 = none ∧ Cell exD₂ 0 0 0 ∧
      ¬ Calibrated exE {} exC₂ exD₂ (calibrate exE {} exC₂ exD₂).1 0 0 0 := by
  refine ⟨⟨exD₁_ok.numbered, exD₁_ok.laidOut, exD₁_ok.tel, by decide, exD₁_ok.pols, exD₁_ok.xo⟩,
    ⟨exC₁_ok.tel, exC₁_ok.ants, exC₁_ok.jones, exC₁_ok.xo⟩, by decide +kernel, ⟨by decide, by decide, by decide⟩, ?_⟩
  intro h
  obtain ⟨j₁, j₂, f, t, _, _, ht, hv⟩ := h 0 1 (-5) 0 1 rfl rfl rfl
    ⟨['a'], 0, ⟨0, rfl, rfl⟩, rfl, 0, rfl, rfl⟩ ⟨['b'], 1, ⟨1, rfl, rfl⟩, rfl, 1, rfl, rfl⟩
  have ht' : t ≠ 0 := by
    rintro rfl
    rcases ht with ⟨x, hx, y, hy, hxy⟩ | ⟨ht, _⟩
    · have hx' : x = 1 := by simpa [exD₂] using hx.symm
      have hy' : y = 0 := by simpa [exC₂] using hy.symm
      subst hx' hy'
      exact absurd hxy (by decide +kernel)
    · exact absurd ht (by decide)
  have hg : ∀ a f t j, t ≠ 0 → exC₂.gain a f t j = 3 := fun a f t j h => if_neg h
  have := (hv _ _ rfl rfl).1
  rw [hg _ _ _ _ ht', hg _ _ _ _ ht'] at this
  have hw : ∀ a f t j, exC₂.gflag a f t j = false := fun _ _ _ _ => rfl
  rw [hw, hw] at this
  exact absurd this (by decide +kernel)

/-! ### An exception in the middle -/

/-- Pair (0, 2) was observed once, pair (0, 1) twice. -/
def exD₃ : Dat ℚ ℚ where
  blts := ⟨[0, 0, 0], [1, 2, 1], [65537, 65538, 65537], 2, 2, 3, false, false⟩
  tel := ⟨[0, 1, 2], [['a'], ['b'], ['c']]⟩
  xo := none
  times := [0, 0, 1]
  freqs := [100]
  pols := [-5]
  vis := fun _ _ _ => 36
  flag := fun _ _ _ => false
  units := uncalib
  conv := none

def exC₃ : Cal ℚ ℚ := { exC₂ with tel := ⟨[0, 1, 2], [['a'], ['b'], ['c']]⟩, ants := [0, 1, 2] }

/-- The exception for the second pair leaves the first one calibrated, with the rest of the object unchanged. -/
theorem half_calibrated_counterexample :
    exD₃.Ok ∧ exC₃.Ok ∧ Spaced exE.tolF exC₃.freqs ∧ Spaced exE.tolF exD₃.freqs ∧
      (calibrate exE {} exC₃ exD₃).2 = some .shape ∧ (calibrate exE {} exC₃ exD₃).1.units = exD₃.units ∧
      (calibrate exE {} exC₃ exD₃).1.vis 0 0 0 = 9 ∧ exD₃.vis 0 0 0 = 36 :=
  ⟨⟨⟨false, by decide +kernel⟩, fun h => by simp [exD₃] at h, ⟨by decide, by decide, by decide⟩, by decide, by decide,
      by intro s hs; simp [exD₃] at hs⟩,
    ⟨⟨by decide, by decide, by decide⟩, by decide, by decide, by intro s hs; simp [exC₃, exC₂, exC₁] at hs⟩,
    by unfold Spaced; decide +kernel, by unfold Spaced; decide +kernel, by decide +kernel, by decide +kernel, by decide +kernel, by decide +kernel⟩

end Verif.Calib
