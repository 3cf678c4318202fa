import Verif.BltAxis.OrderLemmas
import Mathlib.Data.List.ProdSigma

namespace Verif.BltAxis

theorem reshape_length {β : Type} (r c : Nat) (xs : List β) : (reshape r c xs).length = r := by
  simp [reshape]

/-- The rows of a reshaped list have the right length and put together give the list back. -/
theorem reshape_flatten {β : Type} (r c : Nat) (xs : List β) (h : xs.length = r * c) :
    (reshape r c xs).flatten = xs ∧ ∀ l ∈ reshape r c xs, l.length = c := by
  induction r generalizing xs with
  | zero => simp at h; subst h; simp [reshape]
  | succ r ih =>
    have hc : c ≤ xs.length := by rw [h, Nat.succ_mul]; omega
    have e : reshape (r + 1) c xs = xs.take c :: reshape r c (xs.drop c) := by
      simp only [reshape, List.range_succ_eq_map, List.map_cons, List.map_map, Nat.zero_mul, List.drop_zero]
      congr 1
      apply List.map_congr_left
      intro i _
      simp only [Function.comp, Nat.succ_mul, List.drop_drop]
      congr 2; omega
    have hl : (xs.drop c).length = r * c := by
      rw [List.length_drop, h, Nat.succ_mul]; omega
    obtain ⟨h1, h2⟩ := ih (xs.drop c) hl
    rw [e]
    refine ⟨by simp [h1], ?_⟩
    intro l hl'
    rcases List.mem_cons.1 hl' with rfl | hl'
    · simp; omega
    · exact h2 l hl'

/-- `reshape` of a concatenation of equally long rows gives the rows back. -/
theorem reshape_of_rows {β : Type} (rows : List (List β)) (c : Nat) (h : ∀ l ∈ rows, l.length = c) :
    reshape rows.length c rows.flatten = rows := by
  induction rows with
  | nil => simp [reshape]
  | cons l rows ih =>
    have hl := h l (by simp)
    simp only [reshape, List.length_cons, List.range_succ_eq_map, List.map_cons, List.map_map, Nat.zero_mul,
      List.drop_zero, List.flatten_cons]
    congr 1
    · rw [← hl, List.take_left']; rfl
    · have := ih (fun l hl => h l (by simp [hl]))
      conv_rhs => rw [← this]
      simp only [reshape]
      apply List.map_congr_left
      intro i _
      simp only [Function.comp, Nat.succ_mul]
      congr 1
      rw [List.drop_append]
      have e1 : List.drop (i * c + c) l = [] := List.drop_eq_nil_of_le (by omega)
      rw [e1, hl, Nat.add_sub_cancel, List.nil_append]

theorem chainEq_iff {β : Type} [DecidableEq β] (l : List β) :
    (l.zip l.tail).all (fun p => decide (p.1 = p.2)) = true ↔ ∀ x ∈ l, ∀ y ∈ l, x = y := by
  induction l with
  | nil => simp
  | cons a l ih =>
    cases l with
    | nil => simp
    | cons b l =>
      simp only [List.tail_cons, List.zip_cons_cons, List.all_cons, Bool.and_eq_true, decide_eq_true_eq] at ih ⊢
      rw [ih]
      constructor
      · rintro ⟨rfl, h⟩ x hx y hy
        have hx' : x ∈ a :: l := by simpa using hx
        have hy' : y ∈ a :: l := by simpa using hy
        exact h x hx' y hy'
      · intro h
        exact ⟨h a (by simp) b (by simp), fun x hx y hy => h x (by simp [hx]) y (by simp [hy])⟩

theorem rowsConst_iff {β : Type} [DecidableEq β] (m : List (List β)) :
    rowsConst m = true ↔ ∀ x ∈ m, ∀ y ∈ m, x = y := chainEq_iff m

theorem colsConst_iff {β : Type} [DecidableEq β] (m : List (List β)) :
    colsConst m = true ↔ ∀ r ∈ m, ∀ x ∈ r, ∀ y ∈ r, x = y := by
  unfold colsConst
  rw [List.all_eq_true]
  constructor
  · intro h r hr; exact (chainEq_iff r).1 (h r hr)
  · intro h r hr; exact (chainEq_iff r).2 (h r hr)

/-- Rows all equal: the list is a repetition of one row. -/
theorem rows_repeat {β γ : Type} (m : List (List β)) (T : List β) (B : List γ) (hB : B.length = m.length)
    (h : ∀ x ∈ m, x = T) : m.flatten = B.flatMap (fun _ => T) := by
  induction m generalizing B with
  | nil => simp at hB; subst hB; simp
  | cons l m ih =>
    cases B with
    | nil => simp at hB
    | cons b B =>
      simp only [List.flatten_cons, List.flatMap_cons]
      rw [ih B (by simpa using hB) (fun x hx => h x (by simp [hx])), h l (by simp)]

/-- Rows constant: the list is obtained by spreading one value over each row. -/
theorem rows_spread {β γ : Type} (m : List (List β)) (T : List γ) (hT : 0 < T.length)
    (hlen : ∀ r ∈ m, r.length = T.length) (h : ∀ r ∈ m, ∀ x ∈ r, ∀ y ∈ r, x = y) :
    ∃ B : List β, B.length = m.length ∧ m.flatten = B.flatMap (fun b => T.map (fun _ => b)) := by
  induction m with
  | nil => exact ⟨[], rfl, rfl⟩
  | cons l m ih =>
    obtain ⟨B, h1, h2⟩ := ih (fun r hr => hlen r (by simp [hr])) (fun r hr => h r (by simp [hr]))
    have hl := hlen l (by simp)
    match l, hl with
    | [], hl => simp at hl; omega
    | b :: l, hl =>
      refine ⟨b :: B, by simp [h1], ?_⟩
      simp only [List.flatten_cons, List.flatMap_cons, h2]
      congr 1
      apply List.ext_getElem
      · simp [hl]
      · intro i h1 h2
        simp only [List.getElem_map]
        exact h (b :: l) (by simp) _ (List.getElem_mem h1) _ (by simp)

theorem dedup_length_eq {β : Type} [DecidableEq β] {l k : List β} (h : ∀ x, x ∈ l ↔ x ∈ k) :
    l.dedup.length = k.dedup.length := by
  apply List.Perm.length_eq
  rw [List.perm_ext_iff_of_nodup (List.nodup_dedup l) (List.nodup_dedup k)]
  intro x; simp [h]

theorem nodup_of_dedup_length {β : Type} [DecidableEq β] {l : List β} (h : l.dedup.length = l.length) :
    l.Nodup := by
  have := (List.dedup_sublist l).eq_of_length h
  rw [← this]; exact List.nodup_dedup l

theorem mem_flatMap_const {β γ : Type} {B : List γ} {T : List β} (hB : B ≠ []) (x : β) :
    x ∈ B.flatMap (fun _ => T) ↔ x ∈ T := by
  simp only [List.mem_flatMap]
  constructor
  · rintro ⟨_, _, h⟩; exact h
  · intro h
    obtain ⟨b, hb⟩ := List.exists_mem_of_ne_nil B hB
    exact ⟨b, hb, h⟩

theorem mem_flatMap_spread {β γ : Type} {B : List β} {T : List γ} (hT : T ≠ []) (x : β) :
    x ∈ B.flatMap (fun b => T.map (fun _ => b)) ↔ x ∈ B := by
  simp only [List.mem_flatMap, List.mem_map]
  constructor
  · rintro ⟨b, hb, _, _, rfl⟩; exact hb
  · intro h
    obtain ⟨t, ht⟩ := List.exists_mem_of_ne_nil T hT
    exact ⟨x, h, t, ht, rfl⟩

/-- The structural half shared by both majors: `xs` repeats a row, `ys` is constant along rows. -/
theorem grid_structure {β γ : Type} [DecidableEq β] [DecidableEq γ] (xs : List β) (ys : List γ) (r c : Nat)
    (hx : xs.length = r * c) (hy : ys.length = r * c) (hr : 0 < r) (hc : 0 < c)
    (dx : xs.dedup.length = c) (dy : ys.dedup.length = r)
    (h1 : rowsConst (reshape r c xs) = true) (h2 : colsConst (reshape r c ys) = true) :
    ∃ (B : List γ) (T : List β), B.Nodup ∧ T.Nodup ∧ B.length = r ∧ T.length = c ∧
      xs = B.flatMap (fun _ => T) ∧ ys = B.flatMap (fun b => T.map (fun _ => b)) := by
  obtain ⟨fx, lx⟩ := reshape_flatten r c xs hx
  obtain ⟨fy, ly⟩ := reshape_flatten r c ys hy
  have hne : reshape r c xs ≠ [] := by
    intro h; have := reshape_length r c xs; rw [h] at this; simp at this; omega
  obtain ⟨T, hT⟩ := List.exists_mem_of_ne_nil _ hne
  have hTl := lx T hT
  obtain ⟨B, hB1, hB2⟩ := rows_spread (reshape r c ys) T (by omega) (fun l hl => by rw [ly l hl, hTl])
    ((colsConst_iff _).1 h2)
  rw [fy] at hB2
  rw [reshape_length] at hB1
  have hxs : xs = B.flatMap (fun _ => T) := by
    rw [← rows_repeat (reshape r c xs) T B (by rw [reshape_length, hB1])
      (fun x hx => (rowsConst_iff _).1 h1 x hx T hT), fx]
  have hBne : B ≠ [] := by intro h; subst h; simp at hB1; omega
  have hTne : T ≠ [] := by intro h; subst h; simp at hTl; omega
  refine ⟨B, T, ?_, ?_, hB1, hTl, hxs, hB2⟩
  · apply nodup_of_dedup_length
    rw [hB1, ← dy]
    exact (dedup_length_eq (fun x => by rw [hB2]; exact mem_flatMap_spread hTne x)).symm
  · apply nodup_of_dedup_length
    rw [hTl, ← dx]
    exact (dedup_length_eq (fun x => by rw [hxs]; exact mem_flatMap_const hBne x)).symm

theorem flatMap_const_length {β γ : Type} (B : List γ) (T : List β) :
    (B.flatMap (fun _ => T)).length = B.length * T.length := by
  induction B with
  | nil => simp
  | cons b B ih => simp only [List.flatMap_cons, List.length_append, ih, List.length_cons, Nat.succ_mul]; omega

theorem flatMap_spread_length {β γ : Type} (B : List β) (T : List γ) :
    (B.flatMap (fun b => T.map (fun _ => b))).length = B.length * T.length := by
  induction B with
  | nil => simp
  | cons b B ih =>
    simp only [List.flatMap_cons, List.length_append, ih, List.length_cons, Nat.succ_mul, List.length_map]; omega

/-- A grid passes the two tests. -/
theorem grid_passes {β γ : Type} [DecidableEq β] [DecidableEq γ] (B : List γ) (T : List β) :
    rowsConst (reshape B.length T.length (B.flatMap (fun _ => T))) = true ∧
    colsConst (reshape B.length T.length (B.flatMap (fun b => T.map (fun _ => b)))) = true := by
  constructor
  · have e : B.flatMap (fun _ => T) = (B.map (fun _ => T)).flatten := by rw [List.flatMap_def]
    have := reshape_of_rows (B.map (fun _ => T)) T.length (by simp)
    rw [List.length_map] at this
    rw [e, this, rowsConst_iff]
    intro x hx y hy
    simp at hx hy
    rw [hx.2, hy.2]
  · have e : B.flatMap (fun b => T.map (fun _ => b)) = (B.map (fun b => T.map (fun _ => b))).flatten := by
      rw [List.flatMap_def]
    have := reshape_of_rows (B.map (fun b => T.map (fun _ => b))) T.length (by
      intro l hl; obtain ⟨b, _, rfl⟩ := List.mem_map.1 hl; simp)
    rw [List.length_map] at this
    rw [e, this, colsConst_iff]
    intro r hr x hx y hy
    obtain ⟨b, _, rfl⟩ := List.mem_map.1 hr
    simp at hx hy
    rw [hx.2, hy.2]

end Verif.BltAxis
