import Verif.TimeSel.Model
import Mathlib.Tactic.Linarith
import Mathlib.Tactic.Push
import Mathlib.Algebra.Order.Ring.Rat
import Mathlib.Algebra.Field.Rat
import Mathlib.Algebra.Order.Ring.Cast
import Mathlib.Data.Int.Cast.Lemmas

/-! C36: which times the time selectors pick. -/
namespace Verif.TimeSel
open Verif.Np

variable {K : Type} [Field K] [LinearOrder K] [IsStrictOrderedRing K]

omit [Field K] [LinearOrder K] [IsStrictOrderedRing K] in
theorem pickEach_spec {α : Type} (arr : List α) (p : K → α → Bool) (e : Err) : ∀ (ts : List K) (acc : List Nat),
    (∀ r, pickEach arr p e ts acc = .ok r → (∀ t ∈ ts, ∃ x ∈ arr, p t x = true) ∧
      ∀ i, i ∈ r ↔ i ∈ acc ∨ ∃ t ∈ ts, ∃ x, arr[i]? = some x ∧ p t x = true) ∧
    ((∀ t ∈ ts, ∃ x ∈ arr, p t x = true) → ∃ r, pickEach arr p e ts acc = .ok r) ∧
    (∀ e', pickEach arr p e ts acc = .error e' → e' = e) := by
  intro ts
  induction ts with
  | nil =>
    intro acc
    refine ⟨?_, fun _ => ⟨acc, rfl⟩, by simp [pickEach]⟩
    intro r h
    simp only [pickEach, Except.ok.injEq] at h
    subst h
    simp
  | cons t ts ih =>
    intro acc
    have hne : whereIdx (p t) arr = [] ↔ ¬ ∃ x ∈ arr, p t x = true := by
      rw [List.eq_nil_iff_forall_not_mem]
      constructor
      · rintro h ⟨x, hx, hp⟩
        obtain ⟨i, hi⟩ := List.mem_iff_getElem?.1 hx
        exact h i (mem_whereIdx.2 ⟨x, hi, hp⟩)
      · intro h i hi
        obtain ⟨x, hx, hp⟩ := mem_whereIdx.1 hi
        exact h ⟨x, List.mem_of_getElem? hx, hp⟩
    obtain ⟨h1, h2, h3⟩ := ih (acc ++ whereIdx (p t) arr)
    unfold pickEach
    by_cases hw : whereIdx (p t) arr = []
    · rw [if_pos hw]
      refine ⟨by simp, ?_, by simp +contextual⟩
      intro h
      exact absurd (h t (by simp)) (hne.1 hw)
    · rw [if_neg hw]
      have ht : ∃ x ∈ arr, p t x = true := by
        by_contra hc
        exact hw (hne.2 hc)
      refine ⟨?_, fun h => h2 (fun t' ht' => h t' (by simp [ht'])), h3⟩
      intro r hr
      obtain ⟨a, b⟩ := h1 r hr
      refine ⟨?_, ?_⟩
      · intro t' ht'
        rcases List.mem_cons.1 ht' with rfl | ht'
        · exact ht
        · exact a t' ht'
      · intro i
        rw [b i, List.mem_append, mem_whereIdx]
        constructor
        · rintro ((h | h) | ⟨t', ht', h⟩)
          · exact Or.inl h
          · exact Or.inr ⟨t, by simp, h⟩
          · exact Or.inr ⟨t', by simp [ht'], h⟩
        · rintro (h | ⟨t', ht', h⟩)
          · exact Or.inl (Or.inl h)
          · rcases List.mem_cons.1 ht' with rfl | ht'
            · exact Or.inl (Or.inr h)
            · exact Or.inr ⟨t', ht', h⟩

theorem map_some_ok {α : Type} {x : Except Err α} {r : Option α} : x.map some = .ok r ↔ ∃ a, x = .ok a ∧ r = some a := by
  cases x with
  | error e => simp [Except.map]
  | ok a => simp [Except.map, eq_comm]

/-- `times`, object without time ranges: exactly the indices within tolerance of some requested time; an error exactly
when some requested time matches nothing. -/
theorem select_times (P : K) (o : Axis K) (tt lt : K × K) (ts : List K) (ho : o.timeRanges = none) :
    (∀ r, selectTimes P o tt lt ⟨some ts, none, none, none⟩ = .ok r → ∃ inds, r = some inds ∧
      ∀ i, i ∈ inds ↔ ∃ x, o.times[i]? = some x ∧ ∃ t ∈ ts, |x - t| ≤ tt.2 + tt.1 * |t|) ∧
    ((∃ r, selectTimes P o tt lt ⟨some ts, none, none, none⟩ = .ok r) ↔
      ∀ t ∈ ts, ∃ x ∈ o.times, |x - t| ≤ tt.2 + tt.1 * |t|) := by
  obtain ⟨h1, h2, h3⟩ := pickEach_spec o.times (fun t x => isclose tt x t) .noTime ts []
  have e : selectTimes P o tt lt ⟨some ts, none, none, none⟩ =
      (pickEach o.times (fun t x => isclose tt x t) .noTime ts []).map some := by
    simp [selectTimes, byTimes, ho]
  rw [e]
  simp only [isclose, decide_eq_true_eq] at h1 h2
  refine ⟨?_, ?_⟩
  · intro r hr
    obtain ⟨a, ha, rfl⟩ := map_some_ok.1 hr
    refine ⟨a, rfl, ?_⟩
    intro i
    rw [(h1 a ha).2 i]
    simp only [List.not_mem_nil, false_or]
    constructor
    · rintro ⟨t, ht, x, hx, hc⟩; exact ⟨x, hx, t, ht, hc⟩
    · rintro ⟨x, hx, t, ht, hc⟩; exact ⟨t, ht, x, hx, hc⟩
  · constructor
    · rintro ⟨r, hr⟩
      obtain ⟨a, ha, rfl⟩ := map_some_ok.1 hr
      exact (h1 a ha).1
    · intro h
      obtain ⟨r, hr⟩ := h2 h
      exact ⟨some r, map_some_ok.2 ⟨r, hr, rfl⟩⟩

/-- `lsts`, object without LST ranges. -/
theorem select_lsts (P : K) (o : Axis K) (tt lt : K × K) (ls : List K) (ho : o.lstRanges = none) :
    (∀ r, selectTimes P o tt lt ⟨none, none, some ls, none⟩ = .ok r → ∃ inds, r = some inds ∧
      ∀ i, i ∈ inds ↔ ∃ x, o.lsts[i]? = some x ∧ ∃ t ∈ ls, |x - t| ≤ lt.2 + lt.1 * |t|) ∧
    ((∃ r, selectTimes P o tt lt ⟨none, none, some ls, none⟩ = .ok r) ↔
      ∀ t ∈ ls, ∃ x ∈ o.lsts, |x - t| ≤ lt.2 + lt.1 * |t|) := by
  have e : selectTimes P o tt lt ⟨none, none, some ls, none⟩ =
      (pickEach o.lsts (fun t x => isclose lt x t) .noLst ls []).map some := by
    simp [selectTimes, byLsts, ho]
  obtain ⟨h1, h2, h3⟩ := pickEach_spec o.lsts (fun t x => isclose lt x t) .noLst ls []
  rw [e]
  simp only [isclose, decide_eq_true_eq] at h1 h2
  refine ⟨?_, ?_⟩
  · intro r hr
    obtain ⟨a, ha, rfl⟩ := map_some_ok.1 hr
    refine ⟨a, rfl, ?_⟩
    intro i
    rw [(h1 a ha).2 i]
    simp only [List.not_mem_nil, false_or]
    constructor
    · rintro ⟨t, ht, x, hx, hc⟩; exact ⟨x, hx, t, ht, hc⟩
    · rintro ⟨x, hx, t, ht, hc⟩; exact ⟨t, ht, x, hx, hc⟩
  · constructor
    · rintro ⟨r, hr⟩
      obtain ⟨a, ha, rfl⟩ := map_some_ok.1 hr
      exact (h1 a ha).1
    · intro h
      obtain ⟨r, hr⟩ := h2 h
      exact ⟨some r, map_some_ok.2 ⟨r, hr, rfl⟩⟩

/-- `times`, object with time ranges: exactly the ranges that contain some requested time. -/
theorem select_times_ranges (P : K) (o : Axis K) (tt lt : K × K) (ts : List K) (rs : List (K × K))
    (ho : o.timeRanges = some rs) :
    (∀ r, selectTimes P o tt lt ⟨some ts, none, none, none⟩ = .ok r → ∃ inds, r = some inds ∧
      ∀ i, i ∈ inds ↔ ∃ x, rs[i]? = some x ∧ ∃ t ∈ ts, x.1 ≤ t ∧ t ≤ x.2) ∧
    ((∃ r, selectTimes P o tt lt ⟨some ts, none, none, none⟩ = .ok r) ↔
      ∀ t ∈ ts, ∃ x ∈ rs, x.1 ≤ t ∧ t ≤ x.2) := by
  obtain ⟨h1, h2, h3⟩ := pickEach_spec rs (fun (t : K) (r : K × K) => decide (r.1 ≤ t) && decide (t ≤ r.2)) .noTimeRange ts []
  have e : selectTimes P o tt lt ⟨some ts, none, none, none⟩ =
      (pickEach rs (fun (t : K) (r : K × K) => decide (r.1 ≤ t) && decide (t ≤ r.2)) .noTimeRange ts []).map some := by
    simp [selectTimes, byTimes, ho]
  rw [e]
  simp only [Bool.and_eq_true, decide_eq_true_eq] at h1 h2
  refine ⟨?_, ?_⟩
  · intro r hr
    obtain ⟨a, ha, rfl⟩ := map_some_ok.1 hr
    refine ⟨a, rfl, ?_⟩
    intro i
    rw [(h1 a ha).2 i]
    simp only [List.not_mem_nil, false_or]
    constructor
    · rintro ⟨t, ht, x, hx, hc⟩; exact ⟨x, hx, t, ht, hc⟩
    · rintro ⟨x, hx, t, ht, hc⟩; exact ⟨t, ht, x, hx, hc⟩
  · constructor
    · rintro ⟨r, hr⟩
      obtain ⟨a, ha, rfl⟩ := map_some_ok.1 hr
      exact (h1 a ha).1
    · intro h
      obtain ⟨r, hr⟩ := h2 h
      exact ⟨some r, map_some_ok.2 ⟨r, hr, rfl⟩⟩

omit [Field K] [IsStrictOrderedRing K] in
theorem mem_between {arr : List K} {lo hi : K} {i : Nat} :
    i ∈ between arr lo hi ↔ ∃ x, arr[i]? = some x ∧ lo ≤ x ∧ x ≤ hi := by
  unfold between
  rw [mem_whereIdx]
  simp only [Bool.and_eq_true, decide_eq_true_eq]
  constructor
  · rintro ⟨x, hx, a, b⟩; exact ⟨x, hx, b, a⟩
  · rintro ⟨x, hx, a, b⟩; exact ⟨x, hx, b, a⟩

theorem nonEmpty_ok {x : Except Err (List Nat)} {r : Option (List Nat)} :
    nonEmpty x = .ok r ↔ ∃ l, x = .ok l ∧ l ≠ [] ∧ r = some l := by
  rcases x with e | (_ | ⟨k, l⟩) <;> simp [nonEmpty, eq_comm]

/-- `time_range`, object without time ranges: exactly the times in the closed interval, in order; an error exactly when
there are none. -/
theorem select_time_range (P : K) (o : Axis K) (tt lt : K × K) (lo hi : K) (ho : o.timeRanges = none) :
    (∀ r, selectTimes P o tt lt ⟨none, some [lo, hi], none, none⟩ = .ok r → ∃ inds, r = some inds ∧
      inds.Pairwise (· < ·) ∧ ∀ i, i ∈ inds ↔ ∃ x, o.times[i]? = some x ∧ lo ≤ x ∧ x ≤ hi) ∧
    ((∃ r, selectTimes P o tt lt ⟨none, some [lo, hi], none, none⟩ = .ok r) ↔ ∃ x ∈ o.times, lo ≤ x ∧ x ≤ hi) := by
  have e : selectTimes P o tt lt ⟨none, some [lo, hi], none, none⟩ = nonEmpty (.ok (between o.times lo hi)) := by
    simp [selectTimes, byTimeRange, pair, ho]
  rw [e]
  refine ⟨?_, ?_⟩
  · intro r hr
    obtain ⟨l, hl, -, rfl⟩ := nonEmpty_ok.1 hr
    simp only [Except.ok.injEq] at hl
    subst hl
    exact ⟨_, rfl, whereIdx_sorted _ _, fun i => mem_between⟩
  · constructor
    · rintro ⟨r, hr⟩
      obtain ⟨l, hl, hne, rfl⟩ := nonEmpty_ok.1 hr
      simp only [Except.ok.injEq] at hl
      subst hl
      obtain ⟨i, hi⟩ := List.exists_mem_of_ne_nil _ hne
      obtain ⟨x, hx, h⟩ := mem_between.1 hi
      exact ⟨x, List.mem_of_getElem? hx, h⟩
    · rintro ⟨x, hx, h⟩
      obtain ⟨i, hi⟩ := List.mem_iff_getElem?.1 hx
      refine ⟨_, nonEmpty_ok.2 ⟨_, rfl, ?_, rfl⟩⟩
      exact List.ne_nil_of_mem (mem_between.2 ⟨x, hi, h⟩)

/-- A point of the circle of circumference `P` lies on the arc that starts at `lo` and runs upwards to `hi`. -/
def OnArc (P lo hi x : K) : Prop := ∃ k : ℤ, lo ≤ x + k * P ∧ x + k * P ≤ hi + (if hi < lo then P else 0)

theorem onArc_iff (P lo hi x : K) (hlo : 0 ≤ lo ∧ lo < P) (hhi : 0 ≤ hi ∧ hi < P) (hx : 0 ≤ x ∧ x < P) :
    OnArc P lo hi x ↔ if hi < lo then lo ≤ x ∨ x ≤ hi else lo ≤ x ∧ x ≤ hi := by
  have hP : 0 < P := lt_of_le_of_lt hx.1 hx.2
  unfold OnArc
  by_cases hw : hi < lo
  · simp only [if_pos hw]
    constructor
    · rintro ⟨k, h1, h2⟩
      rcases lt_trichotomy k 0 with hk | hk | hk
      · have : (k : K) ≤ -1 := by exact_mod_cast (by omega : k ≤ -1)
        have := mul_le_mul_of_nonneg_right this hP.le
        linarith
      · subst hk
        left
        simpa using h1
      · right
        have : (1 : K) ≤ k := by exact_mod_cast (by omega : 1 ≤ k)
        have := mul_le_mul_of_nonneg_right this hP.le
        linarith
    · rintro (h | h)
      · exact ⟨0, by simpa using h, by simp; linarith⟩
      · exact ⟨1, by simp; linarith, by simpa using h⟩
  · simp only [if_neg hw]
    constructor
    · rintro ⟨k, h1, h2⟩
      rcases lt_trichotomy k 0 with hk | hk | hk
      · have : (k : K) ≤ -1 := by exact_mod_cast (by omega : k ≤ -1)
        have := mul_le_mul_of_nonneg_right this hP.le
        linarith
      · subst hk
        constructor
        · simpa using h1
        · simpa using h2
      · have : (1 : K) ≤ k := by exact_mod_cast (by omega : 1 ≤ k)
        have := mul_le_mul_of_nonneg_right this hP.le
        linarith
    · rintro ⟨h1, h2⟩
      exact ⟨0, by simpa using h1, by simpa using h2⟩

/-- `lst_range`, object without LST ranges: exactly the LSTs on the arc from the first to the second value, through
`2π` when the second is smaller. -/
theorem select_lst_range (P : K) (o : Axis K) (tt lt : K × K) (lo hi : K) (ho : o.lstRanges = none)
    (hlo : 0 ≤ lo ∧ lo < P) (hhi : 0 ≤ hi ∧ hi < P) (hl : ∀ x ∈ o.lsts, 0 ≤ x ∧ x < P) :
    (∀ r, selectTimes P o tt lt ⟨none, none, none, some [lo, hi]⟩ = .ok r → ∃ inds, r = some inds ∧
      inds.Pairwise (· < ·) ∧ ∀ i, i ∈ inds ↔ ∃ x, o.lsts[i]? = some x ∧ OnArc P lo hi x) ∧
    ((∃ r, selectTimes P o tt lt ⟨none, none, none, some [lo, hi]⟩ = .ok r) ↔ ∃ x ∈ o.lsts, OnArc P lo hi x) := by
  have e : selectTimes P o tt lt ⟨none, none, none, some [lo, hi]⟩ = nonEmpty (.ok (lstBetween P o.lsts lo hi)) := by
    simp [selectTimes, byLstRange, pair, ho]
  have hm : ∀ i, i ∈ lstBetween P o.lsts lo hi ↔ ∃ x, o.lsts[i]? = some x ∧ OnArc P lo hi x := by
    intro i
    unfold lstBetween
    by_cases hw : hi < lo
    · rw [if_pos hw, mem_unique, List.mem_append, mem_between, mem_between]
      constructor
      · rintro (⟨x, hx, h1, h2⟩ | ⟨x, hx, h1, h2⟩)
        · refine ⟨x, hx, ?_⟩
          rw [onArc_iff P lo hi x hlo hhi (hl x (List.mem_of_getElem? hx)), if_pos hw]
          exact Or.inl h1
        · refine ⟨x, hx, ?_⟩
          rw [onArc_iff P lo hi x hlo hhi (hl x (List.mem_of_getElem? hx)), if_pos hw]
          exact Or.inr h2
      · rintro ⟨x, hx, h⟩
        have hb := hl x (List.mem_of_getElem? hx)
        rw [onArc_iff P lo hi x hlo hhi hb, if_pos hw] at h
        rcases h with h | h
        · exact Or.inl ⟨x, hx, h, hb.2.le⟩
        · exact Or.inr ⟨x, hx, hb.1, h⟩
    · rw [if_neg hw, mem_between]
      constructor
      · rintro ⟨x, hx, h⟩
        refine ⟨x, hx, ?_⟩
        rw [onArc_iff P lo hi x hlo hhi (hl x (List.mem_of_getElem? hx)), if_neg hw]
        exact h
      · rintro ⟨x, hx, h⟩
        rw [onArc_iff P lo hi x hlo hhi (hl x (List.mem_of_getElem? hx)), if_neg hw] at h
        exact ⟨x, hx, h⟩
  have hs : (lstBetween P o.lsts lo hi).Pairwise (· < ·) := by
    unfold lstBetween
    split
    · exact unique_sorted _
    · exact whereIdx_sorted _ _
  rw [e]
  refine ⟨?_, ?_⟩
  · intro r hr
    obtain ⟨l, hl', -, rfl⟩ := nonEmpty_ok.1 hr
    simp only [Except.ok.injEq] at hl'
    subst hl'
    exact ⟨_, rfl, hs, hm⟩
  · constructor
    · rintro ⟨r, hr⟩
      obtain ⟨l, hl', hne, rfl⟩ := nonEmpty_ok.1 hr
      simp only [Except.ok.injEq] at hl'
      subst hl'
      obtain ⟨i, hi⟩ := List.exists_mem_of_ne_nil _ hne
      obtain ⟨x, hx, h⟩ := (hm i).1 hi
      exact ⟨x, List.mem_of_getElem? hx, h⟩
    · rintro ⟨x, hx, h⟩
      obtain ⟨i, hi⟩ := List.mem_iff_getElem?.1 hx
      refine ⟨_, nonEmpty_ok.2 ⟨_, rfl, ?_, rfl⟩⟩
      exact List.ne_nil_of_mem ((hm i).2 ⟨x, hi, h⟩)

/-- More than one selector is refused. -/
theorem select_one_selector (P : K) (o : Axis K) (tt lt : K × K) (q : Req K)
    (h : 1 < [q.times, q.timeRange, q.lsts, q.lstRange].countP (·.isSome)) :
    selectTimes P o tt lt q = .error .manySelectors := by
  obtain ⟨a, b, c, d⟩ := q
  cases a <;> cases b <;> cases c <;> cases d <;> simp_all [selectTimes]

/-- What `_check_range_overlap` decides: two well-formed ranges have interior points in common, or one is a single
point inside the other. -/
theorem overlap_spec (a b : K × K) (ha : a.1 ≤ a.2) (hb : b.1 ≤ b.2) :
    overlap a b = .ok (decide (if b.1 < a.1 then a.1 < b.2 else b.1 < a.2)) := by
  unfold overlap
  rw [if_neg (by push Not; constructor <;> linarith)]
  by_cases h : b.1 < a.1
  · simp [h]
  · simp [h]

/-- Two ranges of positive length overlap exactly when some point lies strictly inside both. -/
theorem overlap_interior (a b : K × K) (ha : a.1 < a.2) (hb : b.1 < b.2) :
    overlap a b = .ok true ↔ ∃ x, (a.1 < x ∧ x < a.2) ∧ (b.1 < x ∧ x < b.2) := by
  rw [overlap_spec a b ha.le hb.le]
  simp only [Except.ok.injEq, decide_eq_true_eq]
  constructor
  · intro h
    have : max a.1 b.1 < min a.2 b.2 := by
      rw [max_lt_iff, lt_min_iff, lt_min_iff]
      split at h
      · rename_i hlt
        exact ⟨⟨ha, h⟩, lt_trans hlt ha, hb⟩
      · rename_i hge
        exact ⟨⟨ha, lt_of_le_of_lt (not_lt.1 hge) hb⟩, h, hb⟩
    obtain ⟨x, h1, h2⟩ := exists_between this
    rw [max_lt_iff] at h1
    rw [lt_min_iff] at h2
    exact ⟨x, ⟨h1.1, h2.1⟩, h1.2, h2.2⟩
  · rintro ⟨x, ⟨h1, h2⟩, h3, h4⟩
    split
    · exact lt_trans h1 h4
    · exact lt_trans h3 h2

theorem pickOverlap_spec (r : K × K) (hr : r.1 < r.2) : ∀ (rs : List (K × K)) (k : Nat) (acc : List Nat),
    (∀ x ∈ rs, x.1 < x.2) → ∃ l, pickOverlap r k rs acc = .ok l ∧
      ∀ i, i ∈ l ↔ i ∈ acc ∨ ∃ j x, i = k + j ∧ rs[j]? = some x ∧ ∃ y, (x.1 < y ∧ y < x.2) ∧ (r.1 < y ∧ y < r.2) := by
  intro rs
  induction rs with
  | nil => intro k acc _; exact ⟨acc, rfl, by simp⟩
  | cons t ts ih =>
    intro k acc h
    have ht := h t (by simp)
    unfold pickOverlap
    cases hb : overlap t r with
    | error e =>
      rw [overlap_spec t r ht.le hr.le] at hb
      simp at hb
    | ok b =>
      simp only
      obtain ⟨l, hl, hm⟩ := ih (k + 1) (if b then acc ++ [k] else acc) (fun x hx => h x (by simp [hx]))
      refine ⟨l, hl, ?_⟩
      intro i
      rw [hm i]
      have hov := overlap_interior t r ht hr
      rw [hb] at hov
      simp only [Except.ok.injEq] at hov
      constructor
      · rintro (h1 | ⟨j, x, rfl, hx, hy⟩)
        · cases b with
          | false => exact Or.inl (by simpa using h1)
          | true =>
            simp only [if_true, List.mem_append, List.mem_singleton] at h1
            rcases h1 with h1 | rfl
            · exact Or.inl h1
            · exact Or.inr ⟨0, t, rfl, rfl, hov.1 rfl⟩
        · exact Or.inr ⟨j + 1, x, by omega, by simpa using hx, hy⟩
      · rintro (h1 | ⟨j, x, rfl, hx, hy⟩)
        · left
          cases b <;> simp [h1]
        · cases j with
          | zero =>
            simp only [List.getElem?_cons_zero, Option.some.injEq] at hx
            subst hx
            left
            rw [hov.2 hy]
            simp
          | succ j => exact Or.inr ⟨j, x, by omega, by simpa using hx, hy⟩

/-- `time_range`, object with time ranges of positive length: exactly the ranges that share an interior point with the
requested one. -/
theorem select_time_range_ranges (P : K) (o : Axis K) (tt lt : K × K) (lo hi : K) (rs : List (K × K)) (hlt : lo < hi)
    (ho : o.timeRanges = some rs) (hrs : ∀ x ∈ rs, x.1 < x.2) (r : Option (List Nat))
    (h : selectTimes P o tt lt ⟨none, some [lo, hi], none, none⟩ = .ok r) :
    ∃ inds, r = some inds ∧ ∀ i, i ∈ inds ↔
      ∃ x, rs[i]? = some x ∧ ∃ y, (x.1 < y ∧ y < x.2) ∧ (lo < y ∧ y < hi) := by
  obtain ⟨l, hl, hm⟩ := pickOverlap_spec (lo, hi) hlt rs 0 [] hrs
  have e : selectTimes P o tt lt ⟨none, some [lo, hi], none, none⟩ = nonEmpty (pickOverlap (lo, hi) 0 rs []) := by
    simp [selectTimes, byTimeRange, pair, ho]
  rw [e, hl] at h
  obtain ⟨l', hl', -, rfl⟩ := nonEmpty_ok.1 h
  simp only [Except.ok.injEq] at hl'
  subst hl'
  refine ⟨_, rfl, ?_⟩
  intro i
  rw [hm i]
  simp

/-! ### Objects with LST ranges -/

/-- LSTs looked up in LST ranges, as claimed: every range whose arc contains the LST is selected. -/
def LstRangesExact (P : K) (o : Axis K) (rs : List (K × K)) (ls : List K) (inds : List Nat) : Prop :=
  o.lstRanges = some rs ∧ ∀ i, i ∈ inds ↔ ∃ x, rs[i]? = some x ∧ ∃ t ∈ ls, OnArc P x.1 x.2 t

theorem lstRanges_direct (P : K) (rs : List (K × K)) (hrs : ∀ x ∈ rs, (0 ≤ x.1 ∧ x.1 < P) ∧ 0 ≤ x.2 ∧ x.2 < P)
    (hnw : ∀ x ∈ rs, x.1 ≤ x.2) (t : K) (ht : 0 ≤ t ∧ t < P) (i : Nat) :
    i ∈ lstRanges P rs t ↔ ∃ x, rs[i]? = some x ∧ OnArc P x.1 x.2 t := by
  have hw : whereIdx (fun r : K × K => wraps r &&
      ((decide (r.1 ≤ t) && decide (t ≤ P)) || (decide (0 ≤ t) && decide (t ≤ r.2)))) rs = [] := by
    rw [List.eq_nil_iff_forall_not_mem]
    intro j hj
    obtain ⟨x, hx, hp⟩ := mem_whereIdx.1 hj
    simp only [Bool.and_eq_true, wraps, decide_eq_true_eq] at hp
    exact absurd hp.1 (not_lt.2 (hnw x (List.mem_of_getElem? hx)))
  have : lstRanges P rs t = whereIdx (fun r : K × K => decide (r.1 ≤ t) && decide (t ≤ r.2)) rs := by
    unfold lstRanges
    simp only [hw, List.getLast?_nil]
    split
    · rename_i h; exact h.symm
    · rfl
  rw [this, mem_whereIdx]
  simp only [Bool.and_eq_true, decide_eq_true_eq]
  constructor
  · rintro ⟨x, hx, h⟩
    have hm := List.mem_of_getElem? hx
    refine ⟨x, hx, ?_⟩
    rw [onArc_iff P x.1 x.2 t (hrs x hm).1 (hrs x hm).2 ht, if_neg (not_lt.2 (hnw x hm))]
    exact h
  · rintro ⟨x, hx, h⟩
    have hm := List.mem_of_getElem? hx
    rw [onArc_iff P x.1 x.2 t (hrs x hm).1 (hrs x hm).2 ht, if_neg (not_lt.2 (hnw x hm))] at h
    exact ⟨x, hx, h⟩

theorem pickLstRanges_spec (P : K) (rs : List (K × K)) : ∀ (ls : List K) (acc r : List Nat),
    pickLstRanges P rs ls acc = .ok r → (∀ i, i ∈ r ↔ i ∈ acc ∨ ∃ t ∈ ls, i ∈ lstRanges P rs t) ∧
      ∀ t ∈ ls, lstRanges P rs t ≠ [] := by
  intro ls
  induction ls with
  | nil =>
    intro acc r h
    simp only [pickLstRanges, Except.ok.injEq] at h
    subst h
    simp
  | cons t ts ih =>
    intro acc r h
    unfold pickLstRanges at h
    split at h
    · simp at h
    · rename_i hne
      obtain ⟨a, b⟩ := ih _ _ h
      refine ⟨?_, ?_⟩
      · intro i
        rw [a i, List.mem_append]
        constructor
        · rintro ((h1 | h1) | ⟨t', ht', h1⟩)
          · exact Or.inl h1
          · exact Or.inr ⟨t, by simp, h1⟩
          · exact Or.inr ⟨t', by simp [ht'], h1⟩
        · rintro (h1 | ⟨t', ht', h1⟩)
          · exact Or.inl (Or.inl h1)
          · rcases List.mem_cons.1 ht' with rfl | ht'
            · exact Or.inl (Or.inr h1)
            · exact Or.inr ⟨t', ht', h1⟩
      · intro t' ht'
        rcases List.mem_cons.1 ht' with rfl | ht'
        · exact hne
        · exact b t' ht'

/-- `lsts`, object with LST ranges: exact as long as no range of the object crosses `2π`.  Missing: ranges that do, for
which the statement is false. -/
theorem select_lsts_ranges_partial (P : K) (o : Axis K) (tt lt : K × K) (ls : List K) (rs : List (K × K))
    (ho : o.lstRanges = some rs) (hrs : ∀ x ∈ rs, (0 ≤ x.1 ∧ x.1 < P) ∧ 0 ≤ x.2 ∧ x.2 < P)
    (hnw : ∀ x ∈ rs, x.1 ≤ x.2) (hls : ∀ t ∈ ls, 0 ≤ t ∧ t < P) (r : Option (List Nat))
    (h : selectTimes P o tt lt ⟨none, none, some ls, none⟩ = .ok r) :
    ∃ inds, r = some inds ∧ LstRangesExact P o rs ls inds := by
  have e : selectTimes P o tt lt ⟨none, none, some ls, none⟩ = (pickLstRanges P rs ls []).map some := by
    simp [selectTimes, byLsts, ho]
  rw [e] at h
  obtain ⟨a, ha, rfl⟩ := map_some_ok.1 h
  refine ⟨a, rfl, ho, ?_⟩
  intro i
  rw [(pickLstRanges_spec P rs ls [] a ha).1 i]
  simp only [List.not_mem_nil, false_or]
  constructor
  · rintro ⟨t, ht, hi⟩
    obtain ⟨x, hx, hA⟩ := (lstRanges_direct P rs hrs hnw t (hls t ht) i).1 hi
    exact ⟨x, hx, t, ht, hA⟩
  · rintro ⟨x, hx, t, ht, hA⟩
    exact ⟨t, ht, (lstRanges_direct P rs hrs hnw t (hls t ht) i).2 ⟨x, hx, hA⟩⟩

/-- Two nights with the same LST range across `2π`: an LST in both selects only the second night. -/
theorem select_lsts_ranges_counterexample :
    selectTimes (6 : ℚ) ⟨[], none, [], some [(5, 1), (5, 1)]⟩ (0, 0) (0, 0) ⟨none, none, some [1 / 2], none⟩ =
        .ok (some [1]) ∧
      ¬ LstRangesExact (6 : ℚ) ⟨[], none, [], some [(5, 1), (5, 1)]⟩ [(5, 1), (5, 1)] [1 / 2] [1] := by
  refine ⟨by decide +kernel, ?_⟩
  rintro ⟨-, h⟩
  have := (h 0).2 ⟨(5, 1), rfl, 1 / 2, by simp, 1, by norm_num, by norm_num⟩
  simp at this

/-- A requested range across `2π`: an LST range of the object that is disjoint from it is selected, and one that
overlaps it is not. -/
theorem select_lst_range_ranges_counterexample :
    selectTimes (6 : ℚ) ⟨[], none, [], some [(3, 7 / 2), (2, 3)]⟩ (0, 0) (0, 0) ⟨none, none, none, some [5, 1]⟩ =
        .ok (some [0, 1]) ∧
      (¬ ∃ x : ℚ, (3 ≤ x ∧ x ≤ 7 / 2) ∧ OnArc (6 : ℚ) 5 1 x) ∧
    selectTimes (6 : ℚ) ⟨[], none, [], some [(5, 1), (0, 6)]⟩ (0, 0) (0, 0) ⟨none, none, none, some [4, 11 / 2]⟩ =
        .ok (some [1]) ∧
      ∃ x : ℚ, (4 < x ∧ x < 11 / 2) ∧ OnArc (6 : ℚ) 5 1 x := by
  refine ⟨by decide +kernel, ?_, by decide +kernel, 21 / 4, by norm_num, 0, by norm_num, by norm_num⟩
  rintro ⟨x, ⟨h1, h2⟩, hA⟩
  rw [onArc_iff 6 5 1 x (by norm_num) (by norm_num) ⟨by linarith, by linarith⟩, if_pos (by norm_num)] at hA
  rcases hA with h | h <;> linarith

example : selectTimes (6 : ℚ) ⟨[10, 11, 12], none, [5, 11 / 2, 1 / 4], none⟩ (0, 1 / 10) (0, 0)
    ⟨none, none, none, some [21 / 4, 1 / 2]⟩ = .ok (some [1, 2]) := by decide +kernel
example : selectTimes (6 : ℚ) ⟨[10, 11, 12], none, [], none⟩ (0, 1 / 10) (0, 0)
    ⟨some [12, 10 + 1 / 20], none, none, none⟩ = .ok (some [2, 0]) := by decide +kernel
example : selectTimes (6 : ℚ) ⟨[10, 11, 12], none, [], none⟩ (0, 1 / 10) (0, 0)
    ⟨none, some [21 / 2, 12], none, none⟩ = .ok (some [1, 2]) := by decide +kernel

end Verif.TimeSel
