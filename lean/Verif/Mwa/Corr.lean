import Mathlib.Tactic.Ring
import Mathlib.Tactic.Linarith
import Mathlib.Tactic.FieldSimp
import Mathlib.Tactic.LinearCombination
import Mathlib.RingTheory.Polynomial.Chebyshev
import Verif.Mwa.CorrModel

/-! # What corrections of MWA data do -/

namespace Verif.Mwa
open Verif.Np

section
variable {K : Type} [Field K] [LinearOrder K] [IsStrictOrderedRing K]

/-! ## Chebyshev approximation -/

omit [LinearOrder K] [IsStrictOrderedRing K] in
/-- **The polynomial is the sum of the first three odd Chebyshev polynomials.** -/
theorem cheb_poly (t0 t1 t2 x : K) :
    chebPoly t0 t1 t2 x = t0 * (Polynomial.Chebyshev.T K 1).eval x + t1 * (Polynomial.Chebyshev.T K 3).eval x +
      t2 * (Polynomial.Chebyshev.T K 5).eval x := by
  have h2 : (Polynomial.Chebyshev.T K 2).eval x = 2 * x ^ 2 - 1 := by
    simp [Polynomial.Chebyshev.T_two]
  have h3 : (Polynomial.Chebyshev.T K 3).eval x = 4 * x ^ 3 - 3 * x := by
    have := Polynomial.Chebyshev.T_add_two K 1
    norm_num at this
    rw [this]
    simp [Polynomial.Chebyshev.T_two]
    ring
  have h4 : (Polynomial.Chebyshev.T K 4).eval x = 8 * x ^ 4 - 8 * x ^ 2 + 1 := by
    have := Polynomial.Chebyshev.T_add_two K 2
    norm_num at this
    rw [this]
    simp [h3, h2]
    ring
  have h5 : (Polynomial.Chebyshev.T K 5).eval x = 16 * x ^ 5 - 20 * x ^ 3 + 5 * x := by
    have := Polynomial.Chebyshev.T_add_two K 3
    norm_num at this
    rw [this]
    simp [h3, h4]
    ring
  rw [h3, h5]
  simp [chebPoly]
  ring

omit [LinearOrder K] [IsStrictOrderedRing K] in
/-- The correction of the opposite number is the opposite. -/
theorem cheb_odd (t0 t1 t2 x : K) : chebPoly t0 t1 t2 (-x) = -chebPoly t0 t1 t2 x := by
  unfold chebPoly
  ring

omit [LinearOrder K] [IsStrictOrderedRing K] in
/-- **Interpolation**: coefficients that depend on each sigma in a linear way are found exactly. -/
theorem bilinear {h : K} (hh : h ≠ 0) {coef : Nat → Nat → K} {i j : Nat} {g1 g2 A B C D : K}
    (h00 : coef i j = A + B * g1 + C * g2 + D * g1 * g2) (h10 : coef (i - 1) j = A + B * (g1 - h) + C * g2 + D * (g1 - h) * g2)
    (h01 : coef i (j - 1) = A + B * g1 + C * (g2 - h) + D * g1 * (g2 - h))
    (h11 : coef (i - 1) (j - 1) = A + B * (g1 - h) + C * (g2 - h) + D * (g1 - h) * (g2 - h)) (s1 s2 : K) :
    chebCoeff h coef i j (g1 - s1) (g2 - s2) = A + B * s1 + C * s2 + D * s1 * s2 := by
  unfold chebCoeff
  rw [h00, h10, h01, h11]
  field_simp
  ring

/-- Interpolated coefficients lie between those of the four neighbours. -/
theorem bilinear_between {h : K} (hh : 0 < h) {coef : Nat → Nat → K} {i j : Nat} {d1 d2 m M : K} (h1 : 0 ≤ d1) (h1' : d1 ≤ h) (h2 : 0 ≤ d2) (h2' : d2 ≤ h)
    (hm : ∀ a ∈ [i - 1, i], ∀ b ∈ [j - 1, j], m ≤ coef a b ∧ coef a b ≤ M) :
    m ≤ chebCoeff h coef i j d1 d2 ∧ chebCoeff h coef i j d1 d2 ≤ M := by
  have e1 := hm (i - 1) (by simp) (j - 1) (by simp)
  have e2 := hm (i - 1) (by simp) j (by simp)
  have e3 := hm i (by simp) (j - 1) (by simp)
  have e4 := hm i (by simp) j (by simp)
  have w1 : 0 ≤ d1 * d2 := mul_nonneg h1 h2
  have w2 : 0 ≤ d1 * (h - d2) := mul_nonneg h1 (by linarith)
  have w3 : 0 ≤ (h - d1) * d2 := mul_nonneg (by linarith) h2
  have w4 : 0 ≤ (h - d1) * (h - d2) := mul_nonneg (by linarith) (by linarith)
  have hp : 0 < h * h := mul_pos hh hh
  unfold chebCoeff
  rw [one_div, inv_mul_eq_div]
  constructor
  · rw [le_div_iff₀ hp]
    nlinarith [mul_le_mul_of_nonneg_right e1.1 w1, mul_le_mul_of_nonneg_right e2.1 w2, mul_le_mul_of_nonneg_right e3.1 w3,
      mul_le_mul_of_nonneg_right e4.1 w4]
  · rw [div_le_iff₀ hp]
    nlinarith [mul_le_mul_of_nonneg_right e1.2 w1, mul_le_mul_of_nonneg_right e2.2 w2, mul_le_mul_of_nonneg_right e3.2 w3,
      mul_le_mul_of_nonneg_right e4.2 w4]

omit [Field K] [IsStrictOrderedRing K] in
theorem countP_sorted : ∀ {l : List K}, l.Pairwise (· < ·) → ∀ (s : K) {k : Nat} {g : K}, l[k]? = some g →
    (g < s ↔ k < l.countP (fun g => decide (g < s))) := by
  intro l
  induction l with
  | nil => intro _ s k g h; simp at h
  | cons a l ih =>
    intro hs s k g h
    obtain ⟨h1, h2⟩ := List.pairwise_cons.1 hs
    by_cases ha : a < s
    · rw [List.countP_cons_of_pos (by simpa using ha)]
      cases k with
      | zero =>
        obtain rfl : a = g := by simpa using h
        exact ⟨fun _ => by omega, fun _ => ha⟩
      | succ k =>
        rw [ih h2 s (by simpa using h)]
        omega
    · rw [List.countP_cons_of_neg (by simpa using ha)]
      have hz : l.countP (fun g => decide (g < s)) = 0 := by
        rw [List.countP_eq_zero]
        intro x hx
        have := h1 x hx
        simp
        exact le_of_lt (lt_of_le_of_lt (not_lt.1 ha) this)
      rw [hz]
      constructor
      · intro hg
        exfalso
        cases k with
        | zero =>
          obtain rfl : a = g := by simpa using h
          exact ha hg
        | succ k =>
          have h' : l[k]? = some g := by simpa using h
          exact ha (lt_trans (h1 g (List.mem_of_getElem? h')) hg)
      · intro h0
        omega

omit [IsStrictOrderedRing K] in
/-- The place in the grid: the sigma is between two neighbours, and the distance is that to the upper one. -/
theorem place_spec {lo hi : K} {grid : List K} (hs : grid.Pairwise (· < ·)) (hlo : grid[0]? = some lo) {s d : K} {i : Nat}
    (h : gridPlace lo hi grid s = some (i, d)) :
    ∃ g0 g1 : K, 0 < i ∧ grid[i - 1]? = some g0 ∧ grid[i]? = some g1 ∧ g0 < s ∧ s ≤ g1 ∧ d = g1 - s := by
  unfold gridPlace at h
  by_cases hr : lo < s ∧ s ≤ hi
  · rw [if_pos hr] at h
    obtain ⟨g, hg, he⟩ := Option.map_eq_some_iff.1 h
    have he' : searchLeft grid s = i ∧ g - s = d := by simpa using he
    obtain ⟨rfl, rfl⟩ := he'
    have hpos : 0 < searchLeft grid s := (countP_sorted hs s hlo).1 hr.1
    have hlt := (List.getElem?_eq_some_iff.1 hg).1
    have hm := List.getElem?_eq_getElem (l := grid) (i := searchLeft grid s - 1) (by omega)
    refine ⟨_, g, hpos, hm, hg, ?_, ?_, rfl⟩
    · refine (countP_sorted hs s hm).2 ?_
      have : searchLeft grid s = grid.countP (fun g => decide (g < s)) := rfl
      omega
    · have := (countP_sorted hs s hg).not
      exact not_lt.1 (this.2 (lt_irrefl _))
  · rw [if_neg hr] at h
    exact absurd h (by simp)

/-- **The correction of a part of a visibility**: it is found where both sigmas are in range, its coefficients lie between those of
neighbours in the grid, and it is odd. -/
theorem chebCross_spec {lo hi h : K} (hh : 0 < h) {grid : List K} (hs : grid.Pairwise (· < ·)) (hlo : grid[0]? = some lo)
    (hstep : ∀ (i : Nat) (a b : K), grid[i]? = some a → grid[i + 1]? = some b → b = a + h) {coef : Fin 3 → Nat → Nat → K} {k s1 s2 y : K}
    (hy : chebCross lo hi h grid coef k s1 s2 = some y) :
    chebCross lo hi h grid coef (-k) s1 s2 = some (-y) ∧
    ∃ t : Fin 3 → K, y = (t 0 * (Polynomial.Chebyshev.T K 1).eval k + t 1 * (Polynomial.Chebyshev.T K 3).eval k +
        t 2 * (Polynomial.Chebyshev.T K 5).eval k) * (s1 * s2) ∧
      ∃ i j : Nat, (∃ a b : K, grid[i - 1]? = some a ∧ grid[i]? = some b ∧ a < s1 ∧ s1 ≤ b) ∧
        (∃ a b : K, grid[j - 1]? = some a ∧ grid[j]? = some b ∧ a < s2 ∧ s2 ≤ b) ∧
        ∀ (q : Fin 3) (m M : K), (∀ a ∈ [i - 1, i], ∀ b ∈ [j - 1, j], m ≤ coef q a b ∧ coef q a b ≤ M) → m ≤ t q ∧ t q ≤ M := by
  unfold chebCross at hy ⊢
  cases h1 : gridPlace lo hi grid s1 with
  | none => rw [h1] at hy; simp at hy
  | some x =>
    cases h2 : gridPlace lo hi grid s2 with
    | none => rw [h1, h2] at hy; simp at hy
    | some z =>
      obtain ⟨i, d1⟩ := x
      obtain ⟨j, d2⟩ := z
      rw [h1, h2] at hy
      obtain rfl := Option.some.inj hy
      refine ⟨?_, ?_⟩
      · dsimp only
        rw [cheb_odd]
        congr 1
        ring
      · obtain ⟨a0, a1, hi0, ha0, ha1, hl1, hr1, rfl⟩ := place_spec hs hlo h1
        obtain ⟨b0, b1, hj0, hb0, hb1, hl2, hr2, rfl⟩ := place_spec hs hlo h2
        have st1 : a1 = a0 + h := hstep (i - 1) a0 a1 ha0 (by rw [Nat.sub_add_cancel hi0]; exact ha1)
        have st2 : b1 = b0 + h := hstep (j - 1) b0 b1 hb0 (by rw [Nat.sub_add_cancel hj0]; exact hb1)
        refine ⟨fun q => chebCoeff h (coef q) i j (a1 - s1) (b1 - s2), ?_, i, j, ⟨a0, a1, ha0, ha1, hl1, hr1⟩, ⟨b0, b1, hb0, hb1, hl2, hr2⟩, ?_⟩
        · rw [cheb_poly]
        · intro q m M hm
          exact bilinear_between hh (by linarith) (by linarith) (by linarith) (by linarith) hm

/-! ## Without approximation -/

/-- The value of one entry: solved for its size, with its sign. -/
def Solved (solve : K → K → K → K) (x : K × K × K) : K :=
  if 0 < x.1 then solve x.1 x.2.1 x.2.2 * x.2.1 * x.2.2 else -(solve (-x.1) x.2.1 x.2.2 * x.2.1 * x.2.2)

/-- **Entries whose value and sigmas are not zero are corrected with their sign**, whatever other entries there are. -/
theorem crosses_solved (solve : K → K → K → K) (l : List (K × K × K)) {i : Nat} {x : K × K × K} (hx : l[i]? = some x)
    (h : x.1 ≠ 0 ∧ x.2.1 ≠ 0 ∧ x.2.2 ≠ 0) : (crossesInt solve l)[i]? = some (Solved solve x) := by
  unfold crossesInt
  have hany : l.any (fun x => decide (x.1 ≠ 0 ∧ x.2.1 ≠ 0 ∧ x.2.2 ≠ 0)) = true :=
    List.any_eq_true.2 ⟨x, List.mem_of_getElem? hx, by simpa using h⟩
  rw [if_pos hany, List.getElem?_map, hx, Option.map_some]
  dsimp only
  rw [if_pos h]
  unfold Solved
  rcases lt_trichotomy x.1 0 with hn | hz | hp
  · rw [if_pos hn, if_neg (not_lt.2 hn.le), abs_of_neg hn]
  · exact absurd hz h.1
  · rw [if_neg (not_lt.2 hp.le), if_pos hp, abs_of_pos hp]

omit [IsStrictOrderedRing K] in
/-- Values that are not negative are left alone where a sigma is zero. -/
theorem crosses_zero (solve : K → K → K → K) (l : List (K × K × K)) {i : Nat} {x : K × K × K} (hx : l[i]? = some x)
    (h : x.1 = 0 ∨ (0 ≤ x.1 ∧ (x.2.1 = 0 ∨ x.2.2 = 0))) : (crossesInt solve l)[i]? = some x.1 := by
  unfold crossesInt
  have hn : ¬(x.1 ≠ 0 ∧ x.2.1 ≠ 0 ∧ x.2.2 ≠ 0) := by
    rintro ⟨h1, h2, h3⟩
    rcases h with h | ⟨-, h | h⟩
    · exact h1 h
    · exact h2 h
    · exact h3 h
  have hge : ¬ x.1 < 0 := by
    rcases h with h | ⟨h, -⟩
    · rw [h]; exact lt_irrefl _
    · exact not_lt.2 h
  split
  · rw [List.getElem?_map, hx, Option.map_some]
    dsimp only
    rw [if_neg hn, if_neg hge]
  · rw [List.getElem?_map, hx, Option.map_some]

omit [IsStrictOrderedRing K] in
/-- **A negative value whose sigma is zero changes its sign** as soon as any entry of the array is corrected. -/
theorem crosses_sign_counterexample (solve : K → K → K → K) (l : List (K × K × K)) {i : Nat} {x y : K × K × K} (hx : l[i]? = some x)
    (hneg : x.1 < 0) (h : x.2.1 = 0 ∨ x.2.2 = 0) (hy : y ∈ l) (hyn : y.1 ≠ 0 ∧ y.2.1 ≠ 0 ∧ y.2.2 ≠ 0) :
    (crossesInt solve l)[i]? = some (-x.1) := by
  unfold crossesInt
  have hn : ¬(x.1 ≠ 0 ∧ x.2.1 ≠ 0 ∧ x.2.2 ≠ 0) := by
    rintro ⟨h1, h2, h3⟩
    rcases h with h | h
    · exact h2 h
    · exact h3 h
  rw [if_pos (List.any_eq_true.2 ⟨y, hy, by simpa using hyn⟩), List.getElem?_map, hx, Option.map_some]
  dsimp only
  rw [if_neg hn, if_pos hneg]

/-! ## Polarizations -/

/-- Feeds of both antennas, `true` for x: -5 is xx, -6 yy, -7 xy, -8 yx. -/
def feeds (p : Int) : Option (Bool × Bool) :=
  match p with
  | -5 => some (true, true)
  | -6 => some (false, false)
  | -7 => some (true, false)
  | -8 => some (false, true)
  | _ => none

/-- **Each visibility is corrected with the sigmas of its own feeds**: that of the first antenna is of its feed on both sides, and so
is that of the second. -/
theorem sigPols_spec {p : Int} {a b : Bool} (h : feeds p = some (a, b)) :
    ∃ q r : Int, sigPols p = some (q, r) ∧ feeds q = some (a, a) ∧ feeds r = some (b, b) := by
  unfold feeds at h
  split at h
  · obtain ⟨rfl, rfl⟩ : true = a ∧ true = b := by simpa using h
    exact ⟨-5, -5, rfl, rfl, rfl⟩
  · obtain ⟨rfl, rfl⟩ : false = a ∧ false = b := by simpa using h
    exact ⟨-6, -6, rfl, rfl, rfl⟩
  · obtain ⟨rfl, rfl⟩ : true = a ∧ false = b := by simpa using h
    exact ⟨-5, -6, rfl, rfl, rfl⟩
  · obtain ⟨rfl, rfl⟩ : false = a ∧ true = b := by simpa using h
    exact ⟨-6, -5, rfl, rfl, rfl⟩
  · exact absurd h (by simp)

/-! ## Small autos -/

/-- An auto of the antenna is small: not zero and at most half of the number of samples, `width * time / 2`. -/
def SmallAt (width time : K) (auto : Nat → Nat → Nat → Bool → K) (t a f : Nat) : Prop :=
  ∃ p, auto t a f p ≠ 0 ∧ auto t a f p ≤ width * time / 2

omit [IsStrictOrderedRing K] in
theorem small_iff [CharZero K] {width time : K} {auto : Nat → Nat → Nat → Bool → K} {t a f : Nat} :
    (small (width * time * 2) (auto t a f false) || small (width * time * 2) (auto t a f true)) = true ↔ SmallAt width time auto t a f := by
  have e : (1 : K) / 4 * (width * time * 2) = width * time / 2 := by
    field_simp
    ring
  unfold small SmallAt
  rw [e, Bool.or_eq_true, Bool.and_eq_true, Bool.and_eq_true, decide_eq_true_eq, decide_eq_true_eq, decide_eq_true_eq, decide_eq_true_eq]
  constructor
  · rintro (h | h)
    · exact ⟨false, h⟩
    · exact ⟨true, h⟩
  · rintro ⟨p, h⟩
    cases p with
    | false => exact Or.inl h
    | true => exact Or.inr h

/-- **With `flag_small_auto_ants=False` exactly the data of antennas with small autos at the time and frequency are flagged in
addition**, and no antenna is named. -/
theorem small_parts {width time : K} {auto : Nat → Nat → Nat → Bool → K} {nt na nf : Nat} {ant1 ant2 : Nat → Nat} {s : FlagState} :
    (flagSmall false (width * time * 2) auto nt na nf ant1 ant2 s).ants = s.ants ∧
    ∀ t bl f, (flagSmall false (width * time * 2) auto nt na nf ant1 ant2 s).flag t bl f = true ↔
      s.flag t bl f = true ∨ SmallAt width time auto t (ant1 bl) f ∨ SmallAt width time auto t (ant2 bl) f := by
  unfold flagSmall
  rw [if_neg (by simp)]
  refine ⟨rfl, ?_⟩
  intro t bl f
  dsimp only
  rw [Bool.or_eq_true, Bool.or_eq_true, small_iff, small_iff]

/-- **With `flag_small_auto_ants=True` antennas with a small auto anywhere are named**, and if flagged antennas are removed none of
them remains. -/
theorem small_ants {width time : K} {auto : Nat → Nat → Nat → Bool → K} {nt na nf : Nat} {ant1 ant2 : Nat → Nat} {s : FlagState} {a : Nat} (ha : a < na) :
    (a ∈ (flagSmall true (width * time * 2) auto nt na nf ant1 ant2 s).ants ↔
      a ∈ s.ants ∨ ∃ t < nt, ∃ f < nf, SmallAt width time auto t a f) ∧
    (a ∈ kept true na (flagSmall true (width * time * 2) auto nt na nf ant1 ant2 s) ↔
      a ∉ s.ants ∧ ∀ t < nt, ∀ f < nf, ¬ SmallAt width time auto t a f) := by
  have key : a ∈ (flagSmall true (width * time * 2) auto nt na nf ant1 ant2 s).ants ↔
      a ∈ s.ants ∨ ∃ t < nt, ∃ f < nf, SmallAt width time auto t a f := by
    unfold flagSmall
    rw [if_pos rfl]
    dsimp only
    rw [List.mem_append, List.mem_filter, List.mem_filter]
    have hany : ((List.range nt).any (fun t => (List.range nf).any (fun f =>
        small (width * time * 2) (auto t a f false) || small (width * time * 2) (auto t a f true)))) = true ↔
        ∃ t < nt, ∃ f < nf, SmallAt width time auto t a f := by
      rw [List.any_eq_true]
      constructor
      · rintro ⟨t, ht, h⟩
        obtain ⟨f, hf, h⟩ := List.any_eq_true.1 h
        exact ⟨t, List.mem_range.1 ht, f, List.mem_range.1 hf, small_iff.1 h⟩
      · rintro ⟨t, ht, f, hf, h⟩
        exact ⟨t, List.mem_range.2 ht, List.any_eq_true.2 ⟨f, List.mem_range.2 hf, small_iff.2 h⟩⟩
    rw [hany]
    by_cases hs : a ∈ s.ants
    · simp [hs]
    · simp [hs, isin, ha]
  refine ⟨key, ?_⟩
  unfold kept
  rw [if_pos rfl, List.mem_filter]
  have : (!isin a (flagSmall true (width * time * 2) auto nt na nf ant1 ant2 s).ants) = true ↔
      ¬ a ∈ (flagSmall true (width * time * 2) auto nt na nf ant1 ant2 s).ants := by simp [isin]
  rw [this, key]
  push Not
  constructor
  · rintro ⟨-, h⟩
    exact h
  · intro h
    exact ⟨List.mem_range.2 ha, h⟩

/-- **With `flag_small_auto_ants=True` no flag is set**: data of antennas with small autos that are flagged with `False` are not
flagged with `True` if antennas are not removed. -/
theorem small_counterexample {width time : K} {auto : Nat → Nat → Nat → Bool → K} {nt na nf : Nat} {ant1 ant2 : Nat → Nat} {s : FlagState} :
    (flagSmall true (width * time * 2) auto nt na nf ant1 ant2 s).flag = s.flag ∧
    (∀ a < na, a ∈ kept false na (flagSmall true (width * time * 2) auto nt na nf ant1 ant2 s)) ∧
    ∀ t bl f, s.flag t bl f = false → SmallAt width time auto t (ant1 bl) f →
      (flagSmall true (width * time * 2) auto nt na nf ant1 ant2 s).flag t bl f = false ∧
      (flagSmall false (width * time * 2) auto nt na nf ant1 ant2 s).flag t bl f = true := by
  have h1 : (flagSmall true (width * time * 2) auto nt na nf ant1 ant2 s).flag = s.flag := by
    unfold flagSmall
    rw [if_pos rfl]
  refine ⟨h1, ?_, ?_⟩
  · intro a ha
    unfold kept
    rw [if_neg (by simp)]
    exact List.mem_range.2 ha
  · intro t bl f hf hs
    rw [h1]
    exact ⟨hf, (small_parts.2 t bl f).2 (Or.inr (Or.inl hs))⟩

/-! ## Gains, bandpass and cables -/

/-- **Digital gains and the bandpass are divided out**: a value that was multiplied with the gains of both antennas in its coarse
channel, in units of 64, and with the bandpass at its fine channel comes back. -/
theorem bandCorr_undo {gains : Nat → Nat → K} {cb : Nat → K} {spw : List Nat} {a1 a2 b j k : Nat} (hb : spw[b]? = some k)
    (h1 : gains a1 k ≠ 0) (h2 : gains a2 k ≠ 0) (hc : cb j ≠ 0) (v : K) :
    bandCorr gains cb spw a1 a2 b j (v * (gains a1 k / 64) * (gains a2 k / 64) * cb j) = some v := by
  unfold bandCorr
  rw [hb, Option.map_some]
  congr 1
  have : (64 : K) ≠ 0 := by norm_num
  field_simp

omit [LinearOrder K] [IsStrictOrderedRing K] in
/-- **Cables**: the delays of both cables are taken out, where a wave is late by `L / c` and `L` is the length for cables marked "EL" and
the length times the velocity factor for others. -/
theorem cableCorr_undo {C : Type} [CommRing C] {E : K → C} (hE : ∀ x y, E (x + y) = E x * E y) (hE0 : E 0 = 1) (v c freq : K)
    (cable : Nat → Bool × K) {L : Nat → K} (hel : ∀ a, (cable a).1 = true → L a = (cable a).2)
    (hnel : ∀ a, (cable a).1 = false → L a = (cable a).2 * v) (a1 a2 : Nat) (d : C) :
    cableCorr E v c cable freq a1 a2 (d * E (L a2 / c * freq) * E (-(L a1 / c * freq))) = d ∧
    cableCorr E v c cable freq a1 a1 d = d := by
  have key : ∀ x y : K, E x * E y = E (x + y) := fun x y => (hE x y).symm
  have hL : ∀ a, cableLen v (cable a) = L a := by
    intro a
    unfold cableLen
    cases h : (cable a).1 with
    | true => rw [if_pos rfl, hel a h]
    | false => rw [if_neg (by simp), hnel a h]
  unfold cableCorr
  constructor
  · rw [mul_assoc, mul_assoc, key, key, hL, hL]
    have : L a2 / c * freq + (-(L a1 / c * freq) + -((L a2 - L a1) / c * freq)) = 0 := by
      rw [sub_div]
      ring
    rw [this, hE0, mul_one]
  · rw [sub_self, zero_div, zero_mul, neg_zero, hE0, mul_one]

end

end Verif.Mwa
