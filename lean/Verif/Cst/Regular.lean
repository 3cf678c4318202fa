import Verif.Cst.Grid
import Verif.Cst.Name

/-! # Grids that are accepted, and units -/

namespace Verif.Cst

open Verif.Pol (Str)

/-- **C185.** The units before `Hz`. -/
theorem si_units {K : Type} [Field K] :
    si (K := K) 'k' = 10 ^ 3 ∧ si (K := K) 'M' = 10 ^ 6 ∧ si (K := K) 'G' = 10 ^ 9 ∧
      ∀ c : Char, c ≠ 'k' → c ≠ 'M' → c ≠ 'G' → si (K := K) c = 1 := by
  refine ⟨?_, ?_, ?_, ?_⟩
  · norm_num [si]
  · rw [si, if_neg (by decide), if_pos rfl]; norm_num
  · rw [si, if_neg (by decide), if_neg (by decide), if_pos rfl]; norm_num
  · intro c h1 h2 h3; simp [si, h1, h2, h3]

variable {K α : Type} [Field K] [LinearOrder K] [IsStrictOrderedRing K] [FloorSemiring K]

/-- Steps between neighbours are the same within the tolerance, which is relative to one of the steps; there is nothing to compare for one step. -/
def Regular (rtol atol : K) (l : List K) : Prop :=
  3 ≤ l.length → ∃ (i : Nat) (s t : K), l[i]? = some s ∧ l[i + 1]? = some t ∧
    ∀ (j k : Nat) (a b c d : K), l[j]? = some a → l[j + 1]? = some b → l[k]? = some c → l[k + 1]? = some d →
      |(b - a) - (d - c)| ≤ atol + rtol * |t - s|

omit [LinearOrder K] [IsStrictOrderedRing K] [FloorSemiring K] in
theorem diffs_get : ∀ (l : List K) (i : Nat) (x : K), (diffs l)[i]? = some x ↔ ∃ a b, l[i]? = some a ∧ l[i + 1]? = some b ∧ x = b - a
  | [], i, x => by simp [diffs]
  | [a], i, x => by simp [diffs]
  | a :: b :: l, 0, x => by simp [diffs, eq_comm]
  | a :: b :: l, i + 1, x => by
    have := diffs_get (b :: l) i x
    simpa [diffs] using this

omit [Field K] [IsStrictOrderedRing K] [FloorSemiring K] in
theorem foldl_max_mem : ∀ (l : List K) (d : K), (l.foldl max d = d ∨ l.foldl max d ∈ l) ∧ d ≤ l.foldl max d ∧ ∀ x ∈ l, x ≤ l.foldl max d
  | [], d => by simp
  | a :: l, d => by
    obtain ⟨h1, h2, h3⟩ := foldl_max_mem l (max d a)
    rw [List.foldl_cons]
    refine ⟨?_, le_trans (le_max_left _ _) h2, ?_⟩
    · rcases h1 with h1 | h1
      · rw [h1]
        rcases max_choice d a with h | h
        · exact Or.inl h
        · right; rw [h]; simp
      · exact Or.inr (List.mem_cons_of_mem _ h1)
    · intro x hx
      rcases List.mem_cons.1 hx with rfl | hx
      · exact le_trans (le_max_right _ _) h2
      · exact h3 x hx

omit [Field K] [IsStrictOrderedRing K] [FloorSemiring K] in
theorem foldl_min_le : ∀ (l : List K) (d : K), l.foldl min d ≤ d ∧ ∀ x ∈ l, l.foldl min d ≤ x
  | [], d => by simp
  | a :: l, d => by
    obtain ⟨h2, h3⟩ := foldl_min_le l (min d a)
    rw [List.foldl_cons]
    refine ⟨le_trans h2 (min_le_left _ _), ?_⟩
    intro x hx
    rcases List.mem_cons.1 hx with rfl | hx
    · exact le_trans h2 (min_le_right _ _)
    · exact h3 x hx

omit [FloorSemiring K] in
theorem spaced_regular {r a : K} (hr : 0 ≤ r) (ha : 0 ≤ a) {l : List K} (h : spaced r a l) : Regular r a l := by
  intro h3
  have hcl : close r a ((diffs l).foldl min ((diffs l).headD 0)) ((diffs l).foldl max ((diffs l).headD 0)) := by
    rcases h with h | h | h
    · omega
    · rw [h]; unfold close; rw [sub_self, abs_zero]; positivity
    · exact h
  obtain ⟨x0, hx0⟩ : ∃ x, (diffs l)[0]? = some x :=
    ⟨_, (diffs_get l 0 _).2 ⟨_, _, List.getElem?_eq_getElem (by omega), List.getElem?_eq_getElem (by omega), rfl⟩⟩
  have hhead : (diffs l).headD 0 = x0 := by
    cases hd : diffs l with
    | nil => rw [hd] at hx0; cases hx0
    | cons y ys => rw [hd] at hx0; simpa using hx0
  rw [hhead] at hcl
  obtain ⟨m1, m2, m3⟩ := foldl_max_mem (diffs l) x0
  obtain ⟨n1, n2⟩ := foldl_min_le (diffs l) x0
  have hmem : (diffs l).foldl max x0 ∈ diffs l := by
    rcases m1 with m1 | m1
    · rw [m1]; exact List.mem_of_getElem? hx0
    · exact m1
  obtain ⟨i, hi⟩ := List.mem_iff_getElem?.1 hmem
  obtain ⟨s, t, hs, ht, hM⟩ := (diffs_get l i _).1 hi
  refine ⟨i, s, t, hs, ht, ?_⟩
  intro j k a' b c d hja hjb hkc hkd
  have hj : b - a' ∈ diffs l := List.mem_of_getElem? ((diffs_get l j _).2 ⟨a', b, hja, hjb, rfl⟩)
  have hk : d - c ∈ diffs l := List.mem_of_getElem? ((diffs_get l k _).2 ⟨c, d, hkc, hkd, rfl⟩)
  unfold close at hcl
  rw [hM] at hcl m3
  have e1 := m3 _ hj; have e2 := m3 _ hk; have e3 := n2 _ hj; have e4 := n2 _ hk
  have := (abs_le.1 hcl).1
  rw [abs_le]; constructor <;> linarith

/-- **C183.** Whatever is read is as large as the grid of its angles, and its angles are regular; everything else is refused. -/
theorem read_regular {t : Tols K} {q : K} {rotate : Bool} {rows : List (Row K α)} {b : Beam K α}
    (h1 : 0 ≤ t.za.1) (h2 : 0 ≤ t.za.2) (h3 : 0 ≤ t.az.1) (h4 : 0 ≤ t.az.2) (h : readGrid t q rotate rows = .ok b) :
    b.axis1.length * b.axis2.length = rows.length ∧ Regular t.za.1 t.za.2 b.axis2 ∧ Regular t.az.1 t.az.2 b.axis1 := by
  unfold readGrid at h
  generalize hz : Np.unique (rows.map Row.za) = za at h
  generalize ha : Np.unique (rows.map Row.az) = az at h
  dsimp only at h
  by_cases hlen : za.length * az.length ≠ rows.length
  · rw [if_pos hlen] at h; cases h
  rw [if_neg hlen] at h
  by_cases hza : ¬ spaced t.za.1 t.za.2 za
  · rw [if_pos hza] at h; cases h
  rw [if_neg hza] at h
  by_cases haz : ¬ spaced t.az.1 t.az.2 az
  · rw [if_pos haz] at h; cases h
  rw [if_neg haz] at h
  push Not at hlen hza haz
  have key : b.axis1 = az ∧ b.axis2 = za := by
    match az, h with
    | a0 :: a1 :: rest, h =>
      dsimp only at h
      split at h
      · cases h; exact ⟨rfl, rfl⟩
      · split at h
        · cases h; exact ⟨rfl, rfl⟩
        · cases h
    | [], h => cases h
    | [_], h => cases h
  rw [key.1, key.2]
  exact ⟨by rw [← hlen]; exact mul_comm _ _, spaced_regular h1 h2 hza, spaced_regular h3 h4 haz⟩

end Verif.Cst
