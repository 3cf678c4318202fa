import Verif.TimeSel.Props

/-! The positions that `_select_times_helper` gives are positions of the object. -/
namespace Verif.TimeSel
open Verif.Np

variable {K : Type} [Field K] [LinearOrder K]

omit [Field K] [LinearOrder K] in
theorem where_lt {α : Type} {p : α → Bool} {xs : List α} {i : Nat} (h : i ∈ whereIdx p xs) : i < xs.length := by
  obtain ⟨x, hx, _⟩ := mem_whereIdx.1 h
  exact (List.getElem?_eq_some_iff.1 hx).1

omit [Field K] [LinearOrder K] in
theorem pickEach_lt {α : Type} (arr : List α) (p : K → α → Bool) (e : Err) (n : Nat) (hn : arr.length = n) {ts : List K} {r : List Nat}
    (h : pickEach arr p e ts [] = .ok r) : ∀ i ∈ r, i < n := by
  intro i hi
  rcases (((pickEach_spec arr p e ts []).1 r h).2 i).1 hi with h | ⟨_, _, x, hx, _⟩
  · cases h
  · exact hn ▸ (List.getElem?_eq_some_iff.1 hx).1

theorem pickOverlap_lt (r : K × K) : ∀ (rs : List (K × K)) (k : Nat) (acc l : List Nat), pickOverlap r k rs acc = .ok l → (∀ i ∈ acc, i < k + rs.length) →
    ∀ i ∈ l, i < k + rs.length := by
  intro rs
  induction rs with
  | nil =>
    intro k acc l h ha
    cases h
    exact ha
  | cons t rs ih =>
    intro k acc l h ha
    unfold pickOverlap at h
    cases ho : overlap t r with
    | error e => rw [ho] at h; cases h
    | ok b =>
      rw [ho] at h
      have := ih (k + 1) _ l h ?_
      · intro i hi
        have := this i hi
        simp only [List.length_cons]
        omega
      · intro i hi
        have h0 : i ∈ acc ∨ i = k := by
          cases b
          · exact Or.inl hi
          · rcases List.mem_append.1 hi with h | h
            · exact Or.inl h
            · exact Or.inr (List.mem_singleton.1 h)
        rcases h0 with h0 | h0
        · have := ha i h0
          simp only [List.length_cons] at this
          omega
        · omega

theorem pickLstOverlap_lt (P : K) (r : K × K) : ∀ (rs : List (K × K)) (k : Nat) (acc l : List Nat), pickLstOverlap P r k rs acc = .ok l →
    (∀ i ∈ acc, i < k + rs.length) → ∀ i ∈ l, i < k + rs.length := by
  intro rs
  induction rs with
  | nil =>
    intro k acc l h ha
    cases h
    exact ha
  | cons t rs ih =>
    intro k acc l h ha
    have step : ∀ acc' : List Nat, (∀ i ∈ acc', i ∈ acc ∨ i = k) → pickLstOverlap P r (k + 1) rs acc' = .ok l → ∀ i ∈ l, i < k + (t :: rs).length := by
      intro acc' hacc h
      have := ih (k + 1) _ l h ?_
      · intro i hi
        have := this i hi
        simp only [List.length_cons]
        omega
      · intro i hi
        rcases hacc i hi with h0 | h0
        · have := ha i h0
          simp only [List.length_cons] at this
          omega
        · omega
    have app : ∀ i ∈ acc ++ [k], i ∈ acc ∨ i = k := by
      intro i hi
      rcases List.mem_append.1 hi with h | h
      · exact Or.inl h
      · exact Or.inr (List.mem_singleton.1 h)
    unfold pickLstOverlap at h
    by_cases hc : wraps t = false ∧ r.1 < r.2
    · rw [if_pos hc] at h
      cases ho : overlap t r with
      | error e => rw [ho] at h; cases h
      | ok b =>
        rw [ho] at h
        refine step _ ?_ h
        cases b
        · exact fun i hi => Or.inl hi
        · exact app
    · rw [if_neg hc] at h
      refine step _ ?_ h
      split
      · exact app
      · exact fun i hi => Or.inl hi

theorem lstRanges_lt (P : K) (rs : List (K × K)) (t : K) : ∀ i ∈ lstRanges P rs t, i < rs.length := by
  intro i hi
  unfold lstRanges at hi
  dsimp only at hi
  split at hi
  · split at hi
    · cases hi
    · rename_i k hk
      rw [List.mem_singleton] at hi
      subst hi
      exact where_lt (List.mem_of_getLast? hk)
  · exact where_lt hi

theorem pickLstRanges_lt (P : K) (rs : List (K × K)) : ∀ (ts : List K) (acc l : List Nat), pickLstRanges P rs ts acc = .ok l → (∀ i ∈ acc, i < rs.length) →
    ∀ i ∈ l, i < rs.length := by
  intro ts
  induction ts with
  | nil =>
    intro acc l h ha
    cases h
    exact ha
  | cons t ts ih =>
    intro acc l h ha
    unfold pickLstRanges at h
    split at h
    · cases h
    · refine ih _ l h (fun i hi => ?_)
      rcases List.mem_append.1 hi with h | h
      · exact ha i h
      · exact lstRanges_lt P rs t i h

theorem nonEmpty_lt {x : Except Err (List Nat)} {l : List Nat} (h : nonEmpty x = .ok (some l)) : x = .ok l := by
  unfold nonEmpty at h
  split at h
  · cases h
  · cases h
  · cases h
    rfl

/-- An axis of `n` times. -/
structure Axis.Len (o : Axis K) (n : Nat) : Prop where
  times : o.times.length = n
  lsts : o.lsts.length = n
  timeRanges : ∀ r, o.timeRanges = some r → r.length = n
  lstRanges : ∀ r, o.lstRanges = some r → r.length = n

theorem selectTimes_lt (P : K) (o : Axis K) (tt lt : K × K) (q : Req K) (n : Nat) (hn : o.Len n) {l : List Nat}
    (h : selectTimes P o tt lt q = .ok (some l)) : ∀ i ∈ l, i < n := by
  unfold selectTimes at h
  split at h
  · cases h
  · unfold byTimes at h
    split at h
    · rename_i rs hrs
      obtain ⟨a, ha, e⟩ := map_some_ok.1 h
      obtain rfl := Option.some.inj e
      exact pickEach_lt _ _ _ n (hn.timeRanges rs hrs) ha
    · obtain ⟨a, ha, e⟩ := map_some_ok.1 h
      obtain rfl := Option.some.inj e
      exact pickEach_lt _ _ _ n hn.times ha
  · unfold byTimeRange at h
    split at h
    · cases h
    · split at h
      · rename_i rs hrs
        have := pickOverlap_lt _ rs 0 [] l (nonEmpty_lt h) (fun i hi => nomatch hi)
        rw [hn.timeRanges rs hrs] at this
        simpa using this
      · have := Except.ok.inj (nonEmpty_lt h)
        subst this
        intro i hi
        rw [← hn.times]
        exact where_lt hi
  · unfold byLsts at h
    split at h
    · rename_i rs hrs
      obtain ⟨a, ha, e⟩ := map_some_ok.1 h
      obtain rfl := Option.some.inj e
      have := pickLstRanges_lt P rs _ [] l ha (fun i hi => nomatch hi)
      rwa [hn.lstRanges rs hrs] at this
    · obtain ⟨a, ha, e⟩ := map_some_ok.1 h
      obtain rfl := Option.some.inj e
      exact pickEach_lt _ _ _ n hn.lsts ha
  · unfold byLstRange at h
    split at h
    · cases h
    · split at h
      · rename_i rs hrs
        have := pickLstOverlap_lt P _ rs 0 [] l (nonEmpty_lt h) (fun i hi => nomatch hi)
        rw [hn.lstRanges rs hrs] at this
        simpa using this
      · have := Except.ok.inj (nonEmpty_lt h)
        subst this
        intro i hi
        rw [← hn.lsts]
        unfold lstBetween at hi
        split at hi
        · rw [mem_unique] at hi
          rcases List.mem_append.1 hi with h | h
          · exact where_lt h
          · exact where_lt h
        · exact where_lt hi
  · cases h

omit [Field K] [LinearOrder K] in
theorem pickEach_ne {α : Type} (arr : List α) (p : K → α → Bool) (e : Err) {ts : List K} {r : List Nat} (hts : ts ≠ [])
    (h : pickEach arr p e ts [] = .ok r) : r ≠ [] := by
  obtain ⟨h1, h2⟩ := (pickEach_spec arr p e ts []).1 r h
  obtain ⟨t, ht⟩ := List.exists_mem_of_ne_nil _ hts
  obtain ⟨x, hx, hp⟩ := h1 t ht
  obtain ⟨i, hi⟩ := List.mem_iff_getElem?.1 hx
  exact List.ne_nil_of_mem ((h2 i).2 (Or.inr ⟨t, ht, x, hi, hp⟩))

theorem pickLstRanges_ne (P : K) (rs : List (K × K)) : ∀ (ts : List K) (acc l : List Nat), pickLstRanges P rs ts acc = .ok l → ts ≠ [] ∨ acc ≠ [] → l ≠ [] := by
  intro ts
  induction ts with
  | nil =>
    intro acc l h ha
    cases h
    exact ha.resolve_left (fun h => h rfl)
  | cons t ts ih =>
    intro acc l h _
    unfold pickLstRanges at h
    split at h
    · cases h
    · rename_i hne
      exact ih _ l h (Or.inr (List.append_ne_nil_of_right_ne_nil _ hne))

/-- No times at all are never given, unless asked for by an empty list. -/
theorem selectTimes_ne (P : K) (o : Axis K) (tt lt : K × K) (q : Req K) (ht : q.times ≠ some []) (hl : q.lsts ≠ some []) {l : List Nat}
    (h : selectTimes P o tt lt q = .ok (some l)) : l ≠ [] := by
  have hne : ∀ x, nonEmpty x = .ok (some l) → l ≠ [] := by
    intro x h e
    subst e
    unfold nonEmpty at h
    split at h <;> cases h
  unfold selectTimes at h
  split at h
  · cases h
  · rename_i ts h1 _ _ _
    have hts : ts ≠ [] := fun e => ht (by rw [h1, e])
    unfold byTimes at h
    split at h
    · obtain ⟨a, ha, e⟩ := map_some_ok.1 h
      obtain rfl := Option.some.inj e
      exact pickEach_ne _ _ _ hts ha
    · obtain ⟨a, ha, e⟩ := map_some_ok.1 h
      obtain rfl := Option.some.inj e
      exact pickEach_ne _ _ _ hts ha
  · unfold byTimeRange at h
    split at h
    · cases h
    · split at h
      · exact hne _ h
      · exact hne _ h
  · rename_i ls _ _ h1 _
    have hts : ls ≠ [] := fun e => hl (by rw [h1, e])
    unfold byLsts at h
    split at h
    · obtain ⟨a, ha, e⟩ := map_some_ok.1 h
      obtain rfl := Option.some.inj e
      exact pickLstRanges_ne P _ _ [] l ha (Or.inl hts)
    · obtain ⟨a, ha, e⟩ := map_some_ok.1 h
      obtain rfl := Option.some.inj e
      exact pickEach_ne _ _ _ hts ha
  · unfold byLstRange at h
    split at h
    · cases h
    · split at h
      · exact hne _ h
      · exact hne _ h
  · cases h

end Verif.TimeSel
