import Mathlib.Data.List.Basic
import Mathlib.Data.List.Nodup
import Mathlib.Tactic.Ring
import Mathlib.Algebra.Order.Field.Basic
import Verif.MsCal.Model

/-! # Values put into arrays, times of rows and channels of spectral windows -/

namespace Verif.MsCal

/-! ### Arrays -/

theorem fill_eq {R X V : Type} (hit : R → X → Option V) (init : X → V) (rows : List R) (x : X) :
    fill hit init rows x = ((rows.filterMap fun r => hit r x).getLast?).getD (init x) := by
  induction rows using List.reverseRecOn with
  | nil => rfl
  | append_singleton l r ih =>
    unfold fill at ih ⊢
    rw [List.foldl_append, List.foldl_cons, List.foldl_nil, ih, List.filterMap_append]
    cases h : hit r x with
    | none => simp [h]
    | some v => simp [h]

/-- If all rows that reach a place have the same value, this value is there. -/
theorem fill_some {R X V : Type} {hit : R → X → Option V} {init : X → V} {rows : List R} {x : X} {v : V}
    (h1 : ∃ r ∈ rows, hit r x = some v) (h2 : ∀ r ∈ rows, ∀ w, hit r x = some w → w = v) : fill hit init rows x = v := by
  rw [fill_eq]
  obtain ⟨r, hr, e⟩ := h1
  have hne : (rows.filterMap fun r => hit r x) ≠ [] := List.ne_nil_of_mem (List.mem_filterMap.2 ⟨r, hr, e⟩)
  rw [List.getLast?_eq_some_getLast hne, Option.getD_some]
  obtain ⟨r', hr', e'⟩ := List.mem_filterMap.1 (List.getLast_mem hne)
  exact h2 r' hr' _ e'

theorem fill_none {R X V : Type} {hit : R → X → Option V} {init : X → V} {rows : List R} {x : X} (h : ∀ r ∈ rows, hit r x = none) :
    fill hit init rows x = init x := by
  rw [fill_eq, List.filterMap_eq_nil_iff.2 h]; rfl

/-! ### Times -/

/-- New indices come one after the other: `Growth m l e` says that after `m` indices were seen, `l` makes them `e`. -/
inductive Growth : Nat → List Nat → Nat → Prop
  | nil (m : Nat) : Growth m [] m
  | old {m t e : Nat} {l : List Nat} : t < m → Growth m l e → Growth m (t :: l) e
  | new {m e : Nat} {l : List Nat} : Growth (m + 1) l e → Growth m (m :: l) e

theorem Growth.le {m e : Nat} {l : List Nat} (h : Growth m l e) : m ≤ e := by
  induction h with
  | nil => exact le_refl _
  | old _ _ ih => exact ih
  | new _ ih => omega

theorem growth_of {τ : Nat → Nat} (h : ∀ r, ∀ t < τ r, ∃ r' < r, τ r' = t) : ∀ (k r m : Nat), (∀ t, t < m ↔ ∃ r' < r, τ r' = t) →
    ∃ e, Growth m ((List.range' r k).map τ) e ∧ ∀ t, t < e ↔ ∃ r' < r + k, τ r' = t
  | 0, r, m, hm => ⟨m, Growth.nil m, hm⟩
  | k + 1, r, m, hm => by
    rw [List.range'_succ, List.map_cons]
    by_cases hlt : τ r < m
    · obtain ⟨e, he, h'⟩ := growth_of h k (r + 1) m (by
        intro t
        rw [hm t]
        constructor
        · rintro ⟨r', h1, h2⟩; exact ⟨r', by omega, h2⟩
        · rintro ⟨r', h1, h2⟩
          rcases Nat.lt_succ_iff_lt_or_eq.1 h1 with h3 | rfl
          · exact ⟨r', h3, h2⟩
          · exact (hm t).1 (h2 ▸ hlt))
      exact ⟨e, Growth.old hlt he, fun t => (h' t).trans (by rw [show r + 1 + k = r + (k + 1) by omega])⟩
    · have e : τ r = m := by
        rcases Nat.lt_or_ge m (τ r) with h1 | h1
        · have := (hm m).2 (h r m h1); omega
        · omega
      obtain ⟨e', he, h'⟩ := growth_of h k (r + 1) (m + 1) (by
        intro t
        constructor
        · intro ht
          rcases Nat.lt_succ_iff_lt_or_eq.1 ht with h3 | rfl
          · obtain ⟨r', h1, h2⟩ := (hm t).1 h3; exact ⟨r', by omega, h2⟩
          · exact ⟨r, by omega, e⟩
        · rintro ⟨r', h1, h2⟩
          rcases Nat.lt_succ_iff_lt_or_eq.1 h1 with h3 | rfl
          · have := (hm t).2 ⟨r', h3, h2⟩; omega
          · omega)
      refine ⟨e', ?_, fun t => (h' t).trans (by rw [show r + 1 + k = r + (k + 1) by omega])⟩
      rw [e]; exact Growth.new he

variable {K : Type} [Field K] [LinearOrder K] [IsStrictOrderedRing K]

theorem timeStep_old {tol : K} (h0 : 0 ≤ tol) {g : Nat → K} {m t : Nat} (hd : ∀ i j, i < j → j < m → tol < |g i - g j|) (ht : t < m) :
    timeStep tol ((List.range m).map fun i => (g i, i), m) (g t) = (((List.range m).map fun i => (g i, i), m), t) := by
  have hinj : ∀ i j, i < m → j < m → g i = g j → i = j := by
    intro i j hi hj e
    rcases Nat.lt_trichotomy i j with h | h | h
    · have := hd i j h hj; rw [e, sub_self, abs_zero] at this; exact absurd this (not_lt.2 h0)
    · exact h
    · have := hd j i h hi; rw [e, sub_self, abs_zero] at this; exact absurd this (not_lt.2 h0)
  unfold timeStep
  cases hf : ((List.range m).map fun i => (g i, i)).find? fun e => decide (e.1 = g t) with
  | none =>
    have := List.find?_eq_none.1 hf (g t, t) (List.mem_map.2 ⟨t, List.mem_range.2 ht, rfl⟩)
    simp at this
  | some e =>
    have h1 := List.find?_some hf
    obtain ⟨i, hi, rfl⟩ := List.mem_map.1 (List.mem_of_find?_eq_some hf)
    have := hinj i t (List.mem_range.1 hi) ht (of_decide_eq_true h1)
    subst this; rfl

theorem timeStep_new {tol : K} (h0 : 0 ≤ tol) {g : Nat → K} {m : Nat} (hd : ∀ i j, i < j → j < m + 1 → tol < |g i - g j|) :
    timeStep tol ((List.range m).map fun i => (g i, i), m) (g m) = (((List.range (m + 1)).map fun i => (g i, i), m + 1), m) := by
  unfold timeStep
  have h1 : (((List.range m).map fun i => (g i, i)).find? fun e => decide (e.1 = g m)) = none := by
    rw [List.find?_eq_none]
    intro e he
    obtain ⟨i, hi, rfl⟩ := List.mem_map.1 he
    have := hd i m (List.mem_range.1 hi) (by omega)
    simp only [decide_eq_true_eq]
    intro h
    rw [h, sub_self, abs_zero] at this
    exact absurd this (not_lt.2 h0)
  have h2 : (((List.range m).map fun i => (g i, i)).findIdx? fun e => decide (|e.1 - g m| ≤ tol)) = none := by
    rw [List.findIdx?_eq_none_iff]
    intro e he
    obtain ⟨i, hi, rfl⟩ := List.mem_map.1 he
    have := hd i m (List.mem_range.1 hi) (by omega)
    simp only [decide_eq_false_iff_not, not_le]
    exact this
  rw [h1, h2]
  simp [List.range_succ]

/-- If different times are further apart than the tolerance, each row gets the index of its time. -/
theorem timeIdx_growth {tol : K} (h0 : 0 ≤ tol) {g : Nat → K} {m e : Nat} {l : List Nat} (h : Growth m l e)
    (hd : ∀ i j, i < j → j < e → tol < |g i - g j|) :
    timeIdx tol ((List.range m).map fun i => (g i, i), m) (l.map g) = (l, e) := by
  induction h with
  | nil m => rfl
  | @old m t e l ht hl ih =>
    rw [List.map_cons, timeIdx, timeStep_old h0 (fun i j hij hj => hd i j hij (lt_of_lt_of_le hj hl.le)) ht, ih hd]
  | @new m e l hl ih =>
    rw [List.map_cons, timeIdx, timeStep_new h0 (fun i j hij hj => hd i j hij (lt_of_lt_of_le hj hl.le)), ih hd]

/-! ### Channels -/

theorem flatMap_get {β γ : Type} (g : β → List γ) : ∀ (l : List β) (x : Nat) (y : γ), (l.flatMap g)[x]? = some y →
    ∃ (p : Nat) (s : β) (k : Nat), l[p]? = some s ∧ (g s)[k]? = some y ∧ x = ((l.take p).map fun b => (g b).length).sum + k
  | [], x, y, h => by simp at h
  | b :: l, x, y, h => by
    rw [List.flatMap_cons] at h
    by_cases hx : x < (g b).length
    · rw [List.getElem?_append_left hx] at h
      exact ⟨0, b, x, rfl, h, by simp⟩
    · rw [List.getElem?_append_right (by omega)] at h
      obtain ⟨p, s, k, h1, h2, h3⟩ := flatMap_get g l _ y h
      refine ⟨p + 1, s, k, h1, h2, ?_⟩
      simp only [List.take_succ_cons, List.map_cons, List.sum_cons]
      omega

theorem get_flatMap {β γ : Type} (g : β → List γ) : ∀ (l : List β) (p : Nat) (s : β) (k : Nat) (y : γ), l[p]? = some s → (g s)[k]? = some y →
    (l.flatMap g)[((l.take p).map fun b => (g b).length).sum + k]? = some y
  | [], p, s, k, y, h, _ => by simp at h
  | b :: l, 0, s, k, y, h, hk => by
    simp only [List.getElem?_cons_zero, Option.some.injEq] at h
    subst h
    have hlt : k < (g b).length := (List.getElem?_eq_some_iff.1 hk).1
    simp [List.flatMap_cons, List.getElem?_append_left hlt, hk]
  | b :: l, p + 1, s, k, y, h, hk => by
    have := get_flatMap g l p s k y h hk
    rw [List.flatMap_cons, List.take_succ_cons, List.map_cons, List.sum_cons, List.getElem?_append_right (by omega), ← this]
    congr 1; omega

theorem start_lt {l : List Nat} : ∀ {p p' : Nat} {n : Nat}, l[p]? = some n → p < p' → (l.take p).sum + n ≤ (l.take p').sum := by
  induction l with
  | nil => intro p p' n h; simp at h
  | cons b l ih =>
    intro p p' n h hlt
    obtain ⟨q, rfl⟩ : ∃ q, p' = q + 1 := ⟨p' - 1, by omega⟩
    cases p with
    | zero =>
      simp only [List.getElem?_cons_zero, Option.some.injEq] at h
      subst h; simp
    | succ p =>
      have := ih (p := p) (p' := q) h (by omega)
      simp only [List.take_succ_cons, List.sum_cons]
      omega

theorem start_unique {l : List Nat} {p p' n n' x : Nat} (h : l[p]? = some n) (h' : l[p']? = some n') (h1 : (l.take p).sum ≤ x)
    (h2 : x < (l.take p).sum + n) (h3 : (l.take p').sum ≤ x) (h4 : x < (l.take p').sum + n') : p = p' := by
  rcases Nat.lt_trichotomy p p' with hlt | rfl | hlt
  · have := start_lt h hlt; omega
  · rfl
  · have := start_lt h' hlt; omega

end Verif.MsCal
