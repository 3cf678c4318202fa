import Mathlib.Algebra.Order.Ring.Rat
import Mathlib.Data.Rat.Floor
import Verif.Mwa.Map
import Verif.Mwa.Flags
import Verif.Mwa.Corr

/-! # Examples -/

namespace Verif.Mwa.Examples
open Verif.Np

/-! ## Antennas: the table of the metafits file has antennas downwards -/

def inds : List Nat := (List.range 128).reverse
def tiles : List Nat := (List.range 128).map (fun i => 1000 + i)

theorem inds_get {i x : Nat} (h : inds[i]? = some x) : i < 128 ∧ x = 127 - i := by
  have hlt : i < 128 := by
    have := (List.getElem?_eq_some_iff.1 h).1
    simpa [inds] using this
  refine ⟨hlt, ?_⟩
  unfold inds at h
  rw [List.getElem?_reverse (by simpa using hlt), List.length_range, List.getElem?_range (by omega)] at h
  simp at h
  omega

theorem order_ok : IsArgsort inds inds := by
  refine ⟨by decide +kernel, ?_⟩
  have h : inds.Pairwise (fun a b => b < a) := by
    unfold inds
    rw [List.pairwise_reverse]
    exact List.pairwise_lt_range
  refine h.imp ?_
  intro a b hab x y hx hy
  have h1 := inds_get hx
  have h2 := inds_get hy
  omega

theorem pairs_ok : ∃ pairs, antPairs tiles inds = some pairs := by
  have h : (take? tiles inds).isSome = true := by decide +kernel
  obtain ⟨l, hl⟩ := Option.isSome_iff_exists.1 h
  exact ⟨combos l, by unfold antPairs; rw [hl]; rfl⟩

/-- x of antenna 0 (row 127, tile 1127) with y of antenna 1 (row 126, tile 1126): polarization -7, the third. -/
example {C : Type} [CommSemigroup C] [StarMul C] {u file : Nat → C} (hf : Correlated u file) :
    ∃ m pairs, genMap inds = some m ∧ antPairs tiles inds = some pairs ∧ ∃ bl : Nat, pairs[bl]? = some (1127, 1126) ∧
      vis m [3, 0, 2, 1] file bl 2 = some (star (u 255) * u 252) := by
  obtain ⟨pairs, h1⟩ := pairs_ok
  have hi : inds[127]? = some 0 := by decide +kernel
  have hj : inds[126]? = some 1 := by decide +kernel
  have t1 : tiles[127]? = some 1127 := by decide +kernel
  have t2 : tiles[126]? = some 1126 := by decide +kernel
  have hp : polArr [3, 0, 2, 1] = some [-5, -6, -7, -8] := by decide +kernel
  obtain ⟨m, hm, bl, hbl, h⟩ := vis_of_antennas (p1 := 1) (p2 := 0) (List.reverse_perm _) order_ok h1 hp hf hi hj t1 t2 (by omega) (by omega) (by omega)
  exact ⟨m, pairs, hm, h1, bl, hbl, h 2 rfl⟩

example : polArr [3, 0, 2, 1] = some [-5, -6, -7, -8] := pols_order ⟨by decide +kernel, by simp [filePols]⟩

example {C : Type} [CommSemigroup C] [StarMul C] [Inhabited C] : ∃ file, Correlated (C := C) (fun _ => default) file := file_exists _

/-! ## Coarse channels -/

def coarse : List Nat := [126, 127, 128, 129, 130, 131]

/-- Files 1 to 3 have 126 to 128, files 4 to 6 have 131, 130, 129. -/
example : fileChans coarse = [126, 127, 128, 131, 130, 129] := by decide +kernel

theorem idx_ok : IsArgsort (fileChans coarse) [0, 1, 2, 5, 4, 3] := by
  have h : fileChans coarse = [126, 127, 128, 131, 130, 129] := by decide +kernel
  rw [h]
  exact ⟨by decide +kernel, by simp⟩

example : IsFile false coarse 4 131 := by unfold IsFile coarse; decide

/-- Files 2, 4 and 6 are given: file 4 is the last block, which is channel 131. -/
example : ∃ b k : Nat, blockOf (fileNums (orderedFiles false coarse [0, 1, 2, 5, 4, 3]) [2, 4, 6]) 4 = some b ∧
    (spwInds (orderedFiles false coarse [0, 1, 2, 5, 4, 3]) [2, 4, 6])[b]? = some k ∧ coarse[k]? = some 131 :=
  file_block (by unfold coarse; decide) idx_ok (by unfold IsFile coarse; decide) (by simp)

example : blockOf (fileNums (orderedFiles false coarse [0, 1, 2, 5, 4, 3]) [2, 4, 6]) 4 = some 2 := by decide +kernel

example : ∃ b k : Nat, blockOf (fileNums (orderedFiles true coarse []) [131, 127]) 131 = some b ∧
    (spwInds (orderedFiles true coarse []) [131, 127])[b]? = some k ∧ coarse[k]? = some 131 := ⟨1, 5, by decide +kernel, by decide +kernel, rfl⟩

theorem coarse_step : ∀ (k a b : Nat), coarse[k]? = some a → coarse[k + 1]? = some b → b = a + 1 := by
  intro k a b h1 h2
  have hk : k < 5 := by
    have := (List.getElem?_eq_some_iff.1 h2).1
    simp [coarse] at this
    omega
  have : k = 0 ∨ k = 1 ∨ k = 2 ∨ k = 3 ∨ k = 4 := by omega
  rcases this with rfl | rfl | rfl | rfl | rfl <;> simp [coarse] at h1 h2 <;> omega

/-- 32 fine channels of 40 kHz: the second fine channel of channel 131, where 129 begins at 165 MHz. -/
example : freqOf (165000 : ℚ) 40 32 coarse.length [1, 3, 5] 2 1 = some (165000 + 2 * 1280 + 40) := by
  rw [freq_true coarse_step (165000 : ℚ) 40 32 (b := 2) (k := 5) (c := 131) (cm := 129) (j := 1) rfl rfl rfl]
  unfold TrueFreq
  norm_num

/-- Channels 57, 62 and 70: that of 57 is taken to be next to 62. -/
example : freqOf (79360 : ℚ) 40 32 3 [0, 1, 2] 0 0 = some (79360 - 1280) ∧ TrueFreq (79360 : ℚ) 40 32 62 57 0 = 79360 - 5 * 1280 := by
  constructor
  · unfold freqOf; norm_num
  · unfold TrueFreq; norm_num

example : freqOf (79360 : ℚ) 40 32 ([57, 62, 70] : List Nat).length [0, 1, 2] 0 0 ≠ some (TrueFreq (79360 : ℚ) 40 32 62 57 0) :=
  freq_counterexample _ _ (by norm_num) _ (by norm_num) (k := 0) rfl (by norm_num)

example : mwaxCenter (K := ℚ) 121 (30720000) 24 128 10000 = 121 * 1280000 - 640000 := by
  have := (mwax_center (K := ℚ) 121 24 128 30720000 10000 (by norm_num)).2.1 rfl
  rw [this]; norm_num

example {x y : ℚ} (hx : freqOf (165000 : ℚ) 40 32 6 [1, 2] 0 31 = some x) (hy : freqOf (165000 : ℚ) 40 32 6 [1, 2] 1 0 = some y) : y = x + 40 :=
  window_steps (coarse := coarse) (W := 0) (by decide) _ _ _ _ (by unfold coarse; decide) rfl rfl (by decide +kernel) (by decide +kernel) (by norm_num)
    (by norm_num) (by norm_num) hx hy

/-! ## Flags: two coarse channels of 8, edges of 2 channels, one integration at the start -/

theorem init_ok : (flagInit (80 : ℚ) 2 0 40 2 true 5 (2 * 8) 8).isSome = true :=
  (flagInit_accepts (by norm_num) (by norm_num) _ _ _ _).2 ⟨⟨2, by norm_num⟩, ⟨1, by norm_num⟩, ⟨0, by norm_num⟩⟩

example : ∃ F, flagInit (80 : ℚ) 2 0 40 2 true 5 (2 * 8) 8 = some F ∧ F 3 9 = true ∧ F 3 10 = false ∧ F 3 12 = true ∧ F 0 10 = true := by
  obtain ⟨F, hF⟩ := Option.isSome_iff_exists.1 init_ok
  have h := fun (t f : Nat) (ht : t < 5) (hf : f < 2 * 8) =>
    flagInit_exact (t := t) (f := f) (by norm_num) (by norm_num) (by norm_num) (by norm_num) hF ht hf
  refine ⟨F, hF, ?_, ?_, ?_, ?_⟩
  · rw [h 3 9 (by omega) (by omega)]; norm_num
  · rw [Bool.eq_false_iff, Ne, h 3 10 (by omega) (by omega)]; norm_num
  · rw [h 3 12 (by omega) (by omega)]; norm_num
  · rw [h 0 10 (by omega) (by omega)]; norm_num

/-- Half a channel is refused. -/
example : (flagInit (20 : ℚ) 2 0 40 2 true 5 (2 * 8) 8).isSome ≠ true := by
  rw [Ne, flagInit_accepts (by norm_num) (by norm_num)]
  rintro ⟨⟨n, hn⟩, -, -⟩
  have h2 : (20 : ℚ) = (n : ℚ) * 40 := hn
  have h3 : (1 : ℤ) = n * 2 := by
    have : (1 : ℚ) = n * 2 := by linarith
    exact_mod_cast this
  omega

/-- Good data from 105, integrations of 2 from 100: three are flagged. -/
example : ∃ s : Int, numOf (goodStart (105 : ℚ) 100 2) 2 = some s ∧ (2 : Int) < s ∧ ¬ (3 : Int) < s := by
  obtain ⟨s, h1, h2⟩ := goodtime_exact (K := ℚ) (good := 105) (start := 100) (int := 2) (by norm_num)
  exact ⟨s, h1, (h2 2).2 (by norm_num), fun h => absurd ((h2 3).1 h) (by norm_num)⟩

def f1 : DataFile Int := ⟨4, [0, 1], fun t bl j => 100 * t + 10 * bl + j + 1⟩
def f2 : DataFile Int := ⟨4, [2], fun t bl j => 100 * t + 10 * bl + j + 1⟩
def f3 : DataFile Int := ⟨2, [1, 2], fun _ _ _ => -1⟩

example : ∃ d, readFiles [2, 4] 3 (fun _ _ _ => 0) [f1, f2, f3] = some d ∧ d 2 1 4 = 212 ∧ d 0 1 1 = 0 := by
  refine ⟨_, rfl, ?_, ?_⟩
  · exact readFiles_disjoint (l := [f1, f2, f3]) (nums := [2, 4]) (nfc := 3) (x := f2) (by decide) rfl (by simp) rfl (by decide) (by
      intro y hy h1 h2
      simp only [List.mem_cons, List.not_mem_nil, or_false] at hy
      rcases hy with rfl | rfl | rfl
      · exact absurd h2 (by decide)
      · rfl
      · exact absurd h1 (by decide))
  · exact missing_zero (nums := [2, 4]) (nfc := 3) (l := [f1, f2, f3]) (by decide) rfl (by decide +kernel)

/-- The first time is missing in the first channel. -/
example : coarseFlag true (missing [2, 4] [f1, f2, f3]) 2 3 0 5 = true ∧ coarseFlag false (missing [2, 4] [f1, f2, f3]) 2 3 0 5 = false := by
  decide +kernel

example : coarseFlag true (missing [2, 4] [f1, f2, f3]) 2 3 0 5 = true :=
  (coarseFlag_iff true _ (by omega) (by omega)).2 ⟨0, by omega, by decide +kernel, Or.inl rfl⟩

/-- A flag file with 4 rows of 6: its row 1 is row 3 of the data. -/
example : aoFlag [2, 4] 6 3 [⟨4, 4, fun r j => r == 1 && j == 2⟩] 3 5 = true :=
  (aoFlag_iff (by decide) (by omega)).2 ⟨_, List.mem_cons_self, rfl, Or.inr ⟨by decide, 1, by decide, by decide, by decide⟩⟩

/-! ## Corrections -/

def grid : List ℚ := [9/10, 91/100, 92/100, 93/100]
def coef : Fin 3 → Nat → Nat → ℚ := fun q i j => match q with
  | 0 => 1 + i / 100 + j / 50
  | 1 => 1 / 10
  | 2 => 1 / 20

theorem cross_ok : ∃ y, chebCross (9/10) (93/100) (1/100) grid coef (1/2) (183/200) (93/100) = some y :=
  Option.isSome_iff_exists.1 (by decide +kernel)

theorem grid_step : ∀ (i : Nat) (a b : ℚ), grid[i]? = some a → grid[i + 1]? = some b → b = a + 1/100 := by
  intro k a b h1 h2
  have hk : k < 3 := by
    have := (List.getElem?_eq_some_iff.1 h2).1
    simp [grid] at this
    omega
  have : k = 0 ∨ k = 1 ∨ k = 2 := by omega
  rcases this with rfl | rfl | rfl <;> simp [grid] at h1 h2 <;> rw [← h1, ← h2] <;> norm_num

example : ∃ y, chebCross (9/10) (93/100) (1/100) grid coef (1/2) (183/200) (93/100) = some y ∧
    chebCross (9/10) (93/100) (1/100) grid coef (-(1/2)) (183/200) (93/100) = some (-y) := by
  obtain ⟨y, hy⟩ := cross_ok
  exact ⟨y, hy, (chebCross_spec (by norm_num) (by unfold grid; decide +kernel) rfl grid_step hy).1⟩

/-- Outside of the range there is none. -/
example : chebCross (9/10) (93/100) (1/100) grid coef (1/2) (183/200) 2 = none := by decide +kernel

/-- Coefficients that are linear: those in the middle of a cell. -/
example : chebCoeff (1/100 : ℚ) (fun i j => 1 + i + 10 * j) 2 1 (1/200) (1/200) = 1 + 3/2 + 10 * (1/2) := by
  unfold chebCoeff; norm_num

example : chebPoly (2 : ℚ) 3 5 1 = 2 + 3 + 5 := by unfold chebPoly; norm_num

def solve : ℚ → ℚ → ℚ → ℚ := fun k s1 s2 => 2 * k / (s1 * s2)

/-- The third value has no sigma and changes its sign. -/
example : crossesInt solve [(3, 1, 2), (-3, 1, 1), (-5, 0, 1), (5, 0, 1)] = [6, -6, 5, 5] := by decide +kernel

example : (crossesInt solve [(3, 1, 2), (-3, 1, 1), (-5, 0, 1)])[1]? = some (Solved solve (-3, 1, 1)) :=
  crosses_solved solve _ rfl ⟨by norm_num, by norm_num, by norm_num⟩

example : (crossesInt solve [(3, 1, 2), (-3, 1, 1), (-5, 0, 1)])[2]? = some (-(-5 : ℚ)) :=
  crosses_sign_counterexample solve [(3, 1, 2), (-3, 1, 1), (-5, 0, 1)] (i := 2) (x := (-5, 0, 1)) rfl (by norm_num) (Or.inl rfl) (y := (3, 1, 2)) (by simp) ⟨by norm_num, by norm_num, by norm_num⟩

example : ∃ q r : Int, sigPols (-7) = some (q, r) ∧ feeds q = some (true, true) ∧ feeds r = some (false, false) := sigPols_spec rfl

def auto : Nat → Nat → Nat → Bool → ℚ := fun t a _ p => if t = 1 ∧ a = 2 ∧ p then 3 else 100
def st : FlagState := ⟨fun _ _ _ => false, [0]⟩
def a1 : Nat → Nat := fun bl => bl / 3
def a2 : Nat → Nat := fun bl => bl % 3

/-- Antenna 2 has a small auto at time 1; width times time is 10. -/
theorem small_ok : SmallAt (5 : ℚ) 2 auto 1 2 0 := ⟨true, by norm_num [auto], by norm_num [auto]⟩

example : (flagSmall false (5 * 2 * 2) auto 3 3 2 a1 a2 st).flag 1 5 0 = true := (small_parts.2 1 5 0).2 (Or.inr (Or.inr small_ok))

example : 2 ∈ (flagSmall true (5 * 2 * 2) auto 3 3 2 a1 a2 st).ants :=
  (small_ants (by omega)).1.2 (Or.inr ⟨1, by omega, 0, by omega, small_ok⟩)

/-- Not flagged with `True`, flagged with `False`. -/
example : (flagSmall true (5 * 2 * 2) auto 3 3 2 a1 a2 st).flag 1 6 0 = false ∧ (flagSmall false (5 * 2 * 2) auto 3 3 2 a1 a2 st).flag 1 6 0 = true :=
  small_counterexample.2.2 1 6 0 rfl small_ok

example : bandCorr (fun a k => (64 + a + k : ℚ)) (fun j => 1 + j) [3, 5] 1 2 1 4 (7 * ((64 + 1 + 5) / 64) * ((64 + 2 + 5) / 64) * (1 + 4)) = some 7 := by
  have := bandCorr_undo (gains := fun a k => (64 + a + k : ℚ)) (cb := fun j => 1 + j) (spw := [3, 5]) (a1 := 1) (a2 := 2) (b := 1) (j := 4) (k := 5) rfl
    (by norm_num) (by norm_num) (by norm_num) 7
  exact_mod_cast this

/-- `E x = 2 ^ x` for whole `x`. -/
example : cableCorr (fun x : ℚ => ((2 : ℚ) ^ (⌊x⌋ : ℤ))) 1 1 (fun a => (true, (a : ℚ))) 1 3 3 7 = 7 := by
  unfold cableCorr; norm_num

end Verif.Mwa.Examples
