import Verif.Interp.Freq
import Mathlib.Tactic.Ring
import Mathlib.Tactic.IntervalCases
import Mathlib.Data.List.Nodup

/-!
C102 and C103: the points asked for, the test whether they are on the grid, and the azimuths that go around.
-/
namespace Verif.Interp

variable {K V O : Type} [Field K] [LinearOrder K] [IsStrictOrderedRing K]

/-- C102: the points of a request for a grid: the one with azimuth `i` and zenith angle `j` is number `j * (number of azimuths) + i`. -/
theorem grid_point {az za : List K} {i j : Nat} {a z : K} (hi : az[i]? = some a) (hj : za[j]? = some z) :
    (za.flatMap fun z => az.map fun a => (a, z))[j * az.length + i]? = some (a, z) := by
  have hlt := (List.getElem?_eq_some_iff.mp hi).1
  induction za generalizing j with
  | nil => simp at hj
  | cons y za ih =>
    rw [List.flatMap_cons]
    cases j with
    | zero =>
      simp only [List.getElem?_cons_zero, Option.some.injEq] at hj
      subst hj
      rw [Nat.zero_mul, Nat.zero_add, List.getElem?_append_left (by simpa using hlt), List.getElem?_map, hi]
      rfl
    | succ j =>
      rw [List.getElem?_append_right (by simp; rw [Nat.succ_mul]; omega), List.length_map]
      have : (j + 1) * az.length + i - az.length = j * az.length + i := by rw [Nat.succ_mul]; omega
      rw [this]
      exact ih (by simpa using hj)

/-- The smallest squared distance, as an optional number. -/
def IsMinSq (l : List K) (x : K) (r : Option K) : Prop :=
  (r = none ↔ l = []) ∧ ∀ m, r = some m → (∃ t ∈ l, (t - x) ^ 2 = m) ∧ ∀ t ∈ l, m ≤ (t - x) ^ 2

theorem minSq_isMin (l : List K) (x : K) : IsMinSq l x (minSq l x) := by
  unfold minSq
  constructor
  · simp
  · intro m hm
    rw [List.min?_eq_some_iff] at hm
    obtain ⟨h1, h2⟩ := hm
    obtain ⟨t, ht, rfl⟩ := List.mem_map.mp h1
    exact ⟨⟨t, ht, rfl⟩, fun s hs => h2 _ (List.mem_map.mpr ⟨s, hs, rfl⟩)⟩

private theorem fold_some (x : K) : ∀ (l : List K) (a : K), ∃ m,
    l.foldl (fun acc t => match acc with
      | none => some ((x - t) ^ 2)
      | some a => if (x - t) ^ 2 < a then some ((x - t) ^ 2) else some a) (some a) = some m ∧
    m ≤ a ∧ (∀ t ∈ l, m ≤ (t - x) ^ 2) ∧ (m = a ∨ ∃ t ∈ l, (t - x) ^ 2 = m)
  | [], a => ⟨a, rfl, le_refl _, by simp, Or.inl rfl⟩
  | t :: l, a => by
      rw [List.foldl_cons]
      have hsq : (x - t) ^ 2 = (t - x) ^ 2 := by ring
      by_cases h : (x - t) ^ 2 < a
      · obtain ⟨m, h1, h2, h3, h4⟩ := fold_some x l ((x - t) ^ 2)
        refine ⟨m, by simp only [h, if_true]; exact h1, le_trans h2 h.le, ?_, ?_⟩
        · rintro s (_ | ⟨_, hs⟩)
          · rw [← hsq]; exact h2
          · exact h3 s hs
        · rcases h4 with h4 | ⟨s, hs, h4⟩
          · exact Or.inr ⟨t, by simp, by rw [h4, hsq]⟩
          · exact Or.inr ⟨s, List.mem_cons_of_mem _ hs, h4⟩
      · obtain ⟨m, h1, h2, h3, h4⟩ := fold_some x l a
        refine ⟨m, by simp only [h, if_false]; exact h1, h2, ?_, ?_⟩
        · rintro s (_ | ⟨_, hs⟩)
          · rw [← hsq]; exact le_trans h2 (not_lt.mp h)
          · exact h3 s hs
        · rcases h4 with h4 | ⟨s, hs, h4⟩
          · exact Or.inl h4
          · exact Or.inr ⟨s, List.mem_cons_of_mem _ hs, h4⟩

theorem minSqFold_isMin (l : List K) (x : K) : IsMinSq l x (minSqFold l x) := by
  cases l with
  | nil => simp [IsMinSq, minSqFold]
  | cons t l =>
    obtain ⟨m, h1, h2, h3, h4⟩ := fold_some x l ((x - t) ^ 2)
    have hsq : (x - t) ^ 2 = (t - x) ^ 2 := by ring
    have h1' : minSqFold (t :: l) x = some m := h1
    rw [h1']
    refine ⟨by simp, ?_⟩
    · intro m' hm'
      have : m' = m := (Option.some.inj hm').symm
      subst this
      constructor
      · rcases h4 with h4 | ⟨s, hs, h4⟩
        · exact ⟨t, by simp, by rw [h4, hsq]⟩
        · exact ⟨s, List.mem_cons_of_mem _ hs, h4⟩
      · rintro s (_ | ⟨_, hs⟩)
        · rw [← hsq]; exact h2
        · exact h3 s hs

theorem isMinSq_unique {l : List K} {x : K} {r s : Option K} (hr : IsMinSq l x r) (hs : IsMinSq l x s) : r = s := by
  rcases r with _ | a
  · exact (hs.1.mpr (hr.1.mp rfl)).symm
  rcases s with _ | b
  · exact hr.1.mpr (hs.1.mp rfl)
  obtain ⟨⟨t, ht, ha⟩, h1⟩ := hr.2 a rfl
  obtain ⟨⟨u, hu, hb⟩, h2⟩ := hs.2 b rfl
  exact congrArg some (le_antisymm (hb ▸ h1 u hu) (ha ▸ h2 t ht))

/-- C102: the two ways of computing the distance to the grid are the same. -/
theorem distance_two_ways (l : List K) (x : K) : minSq l x = minSqFold l x := isMinSq_unique (minSq_isMin l x) (minSqFold_isMin l x)

/-- C102: a request is refused for its points exactly if one is further than two steps from every point of the grid, whichever way the distances
are computed; `m` is the larger of the two steps. -/
theorem outside_iff {za phi : List K} {m : K} {pts : List (K × K)} (hm : 0 ≤ m) (hz : za ≠ []) (hp : phi ≠ []) :
    outside za phi m pts = true ↔ ∃ p ∈ pts, ∀ t ∈ za, ∀ s ∈ phi, (2 * m) ^ 2 < (s - p.1) ^ 2 + (t - p.2) ^ 2 := by
  have key : ∀ p : K × K, tooFar m (minSq phi p.1) (minSq za p.2) = true ↔ ∀ t ∈ za, ∀ s ∈ phi, (2 * m) ^ 2 < (s - p.1) ^ 2 + (t - p.2) ^ 2 := by
    intro p
    obtain ⟨a1, a2⟩ := minSq_isMin phi p.1
    obtain ⟨b1, b2⟩ := minSq_isMin za p.2
    rcases ha : minSq phi p.1 with _ | a
    · exact absurd (a1.mp ha) hp
    rcases hb : minSq za p.2 with _ | b
    · exact absurd (b1.mp hb) hz
    obtain ⟨⟨s, hs, hsa⟩, amin⟩ := a2 a ha
    obtain ⟨⟨t, ht, htb⟩, bmin⟩ := b2 b hb
    simp only [tooFar, Bool.or_eq_true, decide_eq_true_eq, not_lt.mpr hm, false_or]
    rw [mul_comm m 2]
    constructor
    · intro h t' ht' s' hs'
      exact lt_of_lt_of_le h (add_le_add (amin s' hs') (bmin t' ht'))
    · intro h
      have := h t ht s hs
      rwa [hsa, htb] at this
  unfold outside
  split
  · rw [List.any_eq_true]
    exact exists_congr fun p => and_congr_right fun _ => key p
  · rw [List.any_eq_true]
    refine exists_congr fun p => and_congr_right fun _ => ?_
    rw [← distance_two_ways, ← distance_two_ways]
    exact key p

/-! Azimuths that go around. -/

/-- Azimuths in equal steps. -/
def Even (az : List K) (a0 d : K) : Prop := ∀ i, i < az.length → az[i]? = some (a0 + i * d)

theorem even_getD {az : List K} {a0 d : K} (h : Even az a0 d) {i : Nat} (hi : i < az.length) (x : K) : az.getD i x = a0 + i * d := by
  rw [List.getD_eq_getElem?_getD, h i hi]; rfl

/-- The azimuths used are in equal steps too, three more on either side. -/
theorem phiUse_get {az : List K} {a0 d : K} (h : Even az a0 d) (hn : 1 ≤ az.length) {k : Nat} (hk : k < az.length + 6) :
    (phiUse true az d)[k]? = some (a0 + ((k : K) - 3) * d) := by
  have h0 : az.getD 0 0 = a0 := by rw [even_getD h (by omega)]; simp
  have hl : az.getD (az.length - 1) 0 = a0 + ((az.length : K) - 1) * d := by
    rw [even_getD h (by omega), Nat.cast_sub hn, Nat.cast_one]
  simp only [phiUse, if_true, h0, hl]
  by_cases h1 : k < 3
  · rw [List.append_assoc, List.getElem?_append_left (by simpa using h1)]
    interval_cases k <;> simp <;> ring
  · by_cases h2 : k < az.length + 3
    · rw [List.getElem?_append_left (by simp; omega), List.getElem?_append_right (by simp; omega)]
      show az[k - 3]? = _
      rw [h (k - 3) (by omega), Nat.cast_sub (by omega)]
      simp
    · rw [List.getElem?_append_right (by simp; omega)]
      simp only [List.length_append, List.length_cons, List.length_nil]
      obtain ⟨m, rfl⟩ : ∃ m, k = az.length + 3 + m := ⟨k - (az.length + 3), by omega⟩
      have hm : m < 3 := by omega
      have : az.length + 3 + m - (0 + 1 + 1 + 1 + az.length) = m := by omega
      rw [this]
      interval_cases m <;> simp <;> ring

/-- Which azimuth the values at position `k` are taken from. -/
theorem srcUse_get {az : List K} (hn : 3 ≤ az.length) {k : Nat} (hk : k < az.length + 6) :
    (srcUse true az)[k]? = some (if k < 3 then az.length - 3 + k else if k < az.length + 3 then k - 3 else k - 3 - az.length) := by
  simp only [srcUse, if_true, extend3, List.length_range]
  have hd : ((List.range az.length).drop (az.length - 3)).length = 3 := by simp; omega
  by_cases h1 : k < 3
  · rw [List.append_assoc, List.getElem?_append_left (by omega), List.getElem?_drop, List.getElem?_range (by omega), if_pos h1]
  · rw [if_neg h1]
    by_cases h2 : k < az.length + 3
    · rw [List.getElem?_append_left (by simp; omega), List.getElem?_append_right (by omega), hd, List.getElem?_range (by omega), if_pos h2]
    · rw [List.getElem?_append_right (by simp; omega), if_neg h2]
      have e : k - (List.drop (az.length - 3) (List.range az.length) ++ List.range az.length).length = k - 3 - az.length := by
        rw [List.length_append, hd, List.length_range]; omega
      rw [e, List.getElem?_take_of_lt (by omega), List.getElem?_range (by omega)]

/-- The azimuths go around: the values used at every azimuth are those of the beam at the same azimuth, up to a turn. -/
def Periodic (twoPi : K) (az phi : List K) (src : List Nat) : Prop :=
  phi.length = src.length ∧ ∀ (k : Nat) (p : K) (s : Nat), phi[k]? = some p → src[k]? = some s → ∃ a, az[s]? = some a ∧ (p = a ∨ p = a + twoPi ∨ p = a - twoPi)

theorem phiUse_length (az : List K) (d : K) : (phiUse true az d).length = az.length + 6 := by simp [phiUse]

theorem srcUse_length {az : List K} (hn : 3 ≤ az.length) : (srcUse true az).length = az.length + 6 := by
  simp [srcUse, extend3]; omega

/-- C103: if the steps of the azimuths make one turn, the beam is continued periodically. -/
theorem wrap_periodic {twoPi rtol : K} {az : List K} {a0 d : K} (h : Even az a0 d) (hn : 3 ≤ az.length) (hd : 0 < d) (hr : 0 ≤ rtol)
    (hturn : (az.length : K) * d = twoPi) : wraps twoPi rtol az d = true ∧ Periodic twoPi az (phiUse true az d) (srcUse true az) := by
  have hpos : (0 : K) < az.length := by exact_mod_cast (by omega : 0 < az.length)
  have h1 : (1 : K) ≤ az.length := by exact_mod_cast (by omega : 1 ≤ az.length)
  refine ⟨?_, by rw [phiUse_length, srcUse_length hn], fun k p s hp hs => ?_⟩
  · unfold wraps
    rw [decide_eq_true_eq, even_getD h (by omega), even_getD h (by omega), Nat.cast_sub (by omega)]
    have e : |a0 + ((0 : Nat) : K) * d - (a0 + ((az.length : K) - (1 : Nat)) * d)| = ((az.length : K) - 1) * d := by
      have : a0 + ((0 : Nat) : K) * d - (a0 + ((az.length : K) - (1 : Nat)) * d) = -(((az.length : K) - 1) * d) := by push_cast; ring
      rw [this, abs_neg, abs_of_nonneg (mul_nonneg (by linarith) hd.le)]
    rw [e]
    have e2 : ((az.length : K) - 1) * d + d - twoPi = 0 := by rw [← hturn]; ring
    rw [e2, abs_zero]
    exact add_nonneg hd.le (mul_nonneg hr (abs_nonneg _))
  · have hk : k < az.length + 6 := by have := (List.getElem?_eq_some_iff.mp hp).1; rwa [phiUse_length] at this
    rw [phiUse_get h (by omega) hk] at hp
    rw [srcUse_get hn hk] at hs
    simp only [Option.some.injEq] at hp hs
    subst hp
    by_cases h1 : k < 3
    · rw [if_pos h1] at hs
      subst hs
      refine ⟨_, h _ (by omega), Or.inr (Or.inr ?_)⟩
      rw [← hturn]
      have : ((az.length - 3 + k : Nat) : K) = (az.length : K) - 3 + k := by rw [Nat.cast_add, Nat.cast_sub hn]; norm_num
      rw [this]; ring
    · rw [if_neg h1] at hs
      by_cases h2 : k < az.length + 3
      · rw [if_pos h2] at hs
        subst hs
        refine ⟨_, h _ (by omega), Or.inl ?_⟩
        rw [Nat.cast_sub (by omega)]; norm_num
      · rw [if_neg h2] at hs
        subst hs
        refine ⟨_, h _ (by omega), Or.inr (Or.inl ?_)⟩
        rw [← hturn, Nat.cast_sub (by omega), Nat.cast_sub (by omega)]
        push_cast; ring

/-- C103 is false for azimuths that have both ends of the turn, 0 and 2π: they are taken to go around, and the values before the first azimuth and
after the last are those of the azimuth one step further on, respectively back. -/
theorem wrap_both_ends {twoPi rtol : K} {az : List K} {a0 d : K} (h : Even az a0 d) (hn : 4 ≤ az.length) (hd : 0 < d) (hr : 0 ≤ rtol)
    (hturn : ((az.length : K) - 1) * d = twoPi) : wraps twoPi rtol az d = true ∧
    (∀ k, k < 3 → ∃ p s a, (phiUse true az d)[k]? = some p ∧ (srcUse true az)[k]? = some s ∧ az[s]? = some a ∧ p = a - twoPi - d) ∧
    (∀ k, k < 3 → ∃ p s a, (phiUse true az d)[az.length + 3 + k]? = some p ∧ (srcUse true az)[az.length + 3 + k]? = some s ∧ az[s]? = some a ∧
      p = a + twoPi + d) := by
  have h1 : (1 : K) ≤ az.length := by exact_mod_cast (by omega : 1 ≤ az.length)
  refine ⟨?_, fun k hk => ?_, fun k hk => ?_⟩
  · unfold wraps
    rw [decide_eq_true_eq, even_getD h (by omega), even_getD h (by omega), Nat.cast_sub (by omega)]
    have e : |a0 + ((0 : Nat) : K) * d - (a0 + ((az.length : K) - (1 : Nat)) * d)| = twoPi := by
      have : a0 + ((0 : Nat) : K) * d - (a0 + ((az.length : K) - (1 : Nat)) * d) = -(((az.length : K) - 1) * d) := by push_cast; ring
      rw [this, abs_neg, abs_of_nonneg (mul_nonneg (by linarith) hd.le), hturn]
    rw [e]
    have e2 : twoPi + d - twoPi = d := by ring
    rw [e2, abs_of_pos hd]
    exact le_add_of_nonneg_right (mul_nonneg hr (abs_nonneg _))
  · refine ⟨_, _, _, phiUse_get h (by omega) (by omega), srcUse_get (by omega) (by omega), by rw [if_pos hk]; exact h _ (by omega), ?_⟩
    rw [← hturn]
    have : ((az.length - 3 + k : Nat) : K) = (az.length : K) - 3 + k := by rw [Nat.cast_add, Nat.cast_sub (by omega)]; norm_num
    rw [this]; ring
  · refine ⟨_, _, _, phiUse_get h (by omega) (by omega), srcUse_get (by omega) (by omega),
      by rw [if_neg (by omega), if_neg (by omega)]; exact h _ (by omega), ?_⟩
    rw [← hturn, Nat.cast_sub (by omega), Nat.cast_sub (by omega)]
    push_cast; ring

/-- Four azimuths a quarter turn apart, and five with both ends. -/
example : Even ([0, 1, 2, 3] : List ℚ) 0 1 ∧ Even ([0, 1, 2, 3, 4] : List ℚ) 0 1 := by
  constructor
  all_goals
    intro i hi
    simp only [List.length_cons, List.length_nil] at hi
    interval_cases i <;> simp

end Verif.Interp
