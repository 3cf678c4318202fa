import Verif.MsCal.Fill

/-! # Times of rows that are close to each other -/

namespace Verif.MsCal

variable {K : Type} [Field K] [LinearOrder K] [IsStrictOrderedRing K]

theorem timeIdx_far {tol : K} (h0 : 0 ≤ tol) : ∀ (ts D : List K), (∀ a ∈ D ++ ts, ∀ b ∈ D ++ ts, a ≠ b → tol < |a - b|) → D.Nodup →
    ∃ idx E, timeIdx tol (D.zipIdx, D.length) ts = (idx, E.length) ∧ D <+: E ∧ E.Nodup ∧ idx.length = ts.length ∧
      (∀ (i : Nat) (t : K), ts[i]? = some t → ∃ k : Nat, idx[i]? = some k ∧ E[k]? = some t) ∧ ∀ x ∈ E, x ∈ D ∨ x ∈ ts
  | [], D, _, hD => ⟨[], D, rfl, List.prefix_rfl, hD, rfl, by simp, fun x hx => Or.inl hx⟩
  | t :: ts, D, hfar, hD => by
    have hmem : ∀ x ∈ (D.zipIdx : List (K × Nat)), D[x.2]? = some x.1 := fun x hx => List.mk_mem_zipIdx_iff_getElem?.1 hx
    by_cases ht : t ∈ D
    · obtain ⟨k, hk, hstep⟩ : ∃ k, D[k]? = some t ∧ timeStep tol (D.zipIdx, D.length) t = ((D.zipIdx, D.length), k) := by
        unfold timeStep
        cases hf : (D.zipIdx : List (K × Nat)).find? fun e => decide (e.1 = t) with
        | none =>
          obtain ⟨k, hk⟩ := List.mem_iff_getElem?.1 ht
          have := List.find?_eq_none.1 hf (t, k) (List.mk_mem_zipIdx_iff_getElem?.2 hk)
          simp at this
        | some e =>
          have h1 : e.1 = t := of_decide_eq_true (List.find?_some (p := fun e : K × Nat => decide (e.1 = t)) hf)
          exact ⟨e.2, h1 ▸ hmem e (List.mem_of_find?_eq_some hf), rfl⟩
      obtain ⟨idx, E, h1, h2, h3, h4, h5, h6⟩ := timeIdx_far h0 ts D (fun a ha b hb => hfar a (by simp at ha ⊢; tauto) b (by simp at hb ⊢; tauto)) hD
      refine ⟨k :: idx, E, ?_, h2, h3, by simp [h4], ?_, ?_⟩
      · rw [timeIdx, hstep, h1]
      · intro i t' hi
        cases i with
        | zero =>
          simp only [List.getElem?_cons_zero, Option.some.injEq] at hi ⊢
          subst hi
          refine ⟨k, rfl, ?_⟩
          obtain ⟨r, rfl⟩ := h2
          rw [List.getElem?_append_left (List.getElem?_eq_some_iff.1 hk).1, hk]
        | succ i => exact h5 i t' hi
      · intro x hx
        rcases h6 x hx with h | h
        · exact Or.inl h
        · exact Or.inr (List.mem_cons_of_mem _ h)
    · have hstep : timeStep tol (D.zipIdx, D.length) t = (((D ++ [t]).zipIdx, (D ++ [t]).length), D.length) := by
        unfold timeStep
        have h1 : ((D.zipIdx : List (K × Nat)).find? fun e => decide (e.1 = t)) = none := by
          rw [List.find?_eq_none]
          intro e he
          simp only [decide_eq_true_eq]
          rintro rfl
          exact ht (List.mem_of_getElem? (hmem e he))
        have h2 : ((D.zipIdx : List (K × Nat)).findIdx? fun e => decide (|e.1 - t| ≤ tol)) = none := by
          rw [List.findIdx?_eq_none_iff]
          intro e he
          simp only [decide_eq_false_iff_not, not_le]
          have hm := List.mem_of_getElem? (hmem e he)
          exact hfar e.1 (by simp [hm]) t (by simp) (fun h => ht (h ▸ hm))
        rw [h1, h2]
        simp [List.zipIdx_append]
      obtain ⟨idx, E, h1, h2, h3, h4, h5, h6⟩ := timeIdx_far h0 ts (D ++ [t])
        (fun a ha b hb => hfar a (by simp at ha ⊢; tauto) b (by simp at hb ⊢; tauto)) (by
          rw [List.nodup_append]
          refine ⟨hD, by simp, ?_⟩
          intro a ha b hb
          rw [List.mem_singleton] at hb
          subst hb
          rintro rfl
          exact ht ha)
      refine ⟨D.length :: idx, E, ?_, (List.prefix_append D [t]).trans h2, h3, by simp [h4], ?_, ?_⟩
      · rw [timeIdx, hstep, h1]
      · intro i t' hi
        cases i with
        | zero =>
          simp only [List.getElem?_cons_zero, Option.some.injEq] at hi ⊢
          subst hi
          refine ⟨D.length, rfl, ?_⟩
          obtain ⟨r, rfl⟩ := h2
          simp
        | succ i => exact h5 i t' hi
      · intro x hx
        rcases h6 x hx with h | h
        · simp only [List.mem_append, List.mem_singleton] at h
          rcases h with h | rfl
          · exact Or.inl h
          · exact Or.inr (by simp)
        · exact Or.inr (List.mem_cons_of_mem _ h)

/-- **C200.** In any table in which different times are further apart than the tolerance, rows are put at the same time exactly if their times are the
same, every row is put at a time of the result, and each time of the result has a row. -/
theorem near_times_partial {tol : K} (h0 : 0 ≤ tol) {ts : List K} (hfar : ∀ a ∈ ts, ∀ b ∈ ts, a ≠ b → tol < |a - b|) :
    (timeIdx tol ([], 0) ts).1.length = ts.length ∧
    (∀ (i j k l : Nat) (a b : K), ts[i]? = some a → ts[j]? = some b → (timeIdx tol ([], 0) ts).1[i]? = some k → (timeIdx tol ([], 0) ts).1[j]? = some l →
      (k = l ↔ a = b)) ∧
    (∀ k ∈ (timeIdx tol ([], 0) ts).1, k < (timeIdx tol ([], 0) ts).2) ∧
    ∀ k < (timeIdx tol ([], 0) ts).2, k ∈ (timeIdx tol ([], 0) ts).1 := by
  obtain ⟨idx, E, h1, _, h3, h4, h5, h6⟩ := timeIdx_far h0 ts [] (by simpa using hfar) List.nodup_nil
  rw [List.zipIdx_nil, List.length_nil] at h1
  rw [h1]
  refine ⟨h4, ?_, ?_, ?_⟩
  · intro i j k l a b ha hb hk hl
    obtain ⟨k', hk', ek⟩ := h5 i a ha
    obtain ⟨l', hl', el⟩ := h5 j b hb
    have e1 : k' = k := Option.some.inj (hk'.symm.trans hk)
    have e2 : l' = l := Option.some.inj (hl'.symm.trans hl)
    subst e1; subst e2
    constructor
    · rintro rfl; exact Option.some.inj (ek.symm.trans el)
    · rintro rfl
      obtain ⟨h7, e7⟩ := List.getElem?_eq_some_iff.1 ek
      obtain ⟨h8, e8⟩ := List.getElem?_eq_some_iff.1 el
      exact (List.Nodup.getElem_inj_iff h3).1 (e7.trans e8.symm)
  · intro k hk
    obtain ⟨i, hi⟩ := List.mem_iff_getElem?.1 hk
    have hil : i < ts.length := by rw [← h4]; exact (List.getElem?_eq_some_iff.1 hi).1
    obtain ⟨k', hk', ek⟩ := h5 i _ (List.getElem?_eq_getElem hil)
    have e1 : k' = k := Option.some.inj (hk'.symm.trans hi)
    subst e1
    exact (List.getElem?_eq_some_iff.1 ek).1
  · intro k hk
    have hx := h6 E[k] (List.getElem_mem hk)
    simp only [List.not_mem_nil, false_or] at hx
    obtain ⟨i, hi⟩ := List.mem_iff_getElem?.1 hx
    obtain ⟨k', hk', ek⟩ := h5 i _ hi
    obtain ⟨h7, e7⟩ := List.getElem?_eq_some_iff.1 ek
    have : k' = k := (List.Nodup.getElem_inj_iff h3).1 e7
    subst this
    exact List.mem_of_getElem? hk'

/-- **C200.** A table with times `a`, `a'` (close to `a`), `b` and `b'` (close to `b`): there are two times, but the last row is put at a third one,
since the index that is taken counts `a'` as well. Reading fails. -/
theorem near_index_counterexample {tol a a' b b' : K} (h0 : 0 ≤ tol) (ha : a' ≠ a) (hb : b' ≠ b) (h1 : |a - a'| ≤ tol) (h2 : |b - b'| ≤ tol)
    (h3 : tol < |a - b|) (h4 : tol < |a' - b|) (h5 : tol < |a - b'|) (h6 : tol < |a' - b'|) :
    timeIdx tol ([], 0) [a, a', b, b'] = ([0, 0, 1, 2], 2) := by
  have n1 : a ≠ b := by rintro rfl; rw [sub_self, abs_zero] at h3; exact absurd h3 (not_lt.2 h0)
  have n2 : a' ≠ b := by rintro rfl; rw [sub_self, abs_zero] at h4; exact absurd h4 (not_lt.2 h0)
  have n3 : a ≠ b' := by rintro rfl; rw [sub_self, abs_zero] at h5; exact absurd h5 (not_lt.2 h0)
  have n4 : a' ≠ b' := by rintro rfl; rw [sub_self, abs_zero] at h6; exact absurd h6 (not_lt.2 h0)
  simp [timeIdx, timeStep, ha.symm, h1, n1, n2, n3, n4, hb.symm, not_le.2 h3, not_le.2 h4, not_le.2 h5, not_le.2 h6, h2, List.findIdx?_cons]

/-- **C200.** With another time `d` between them, the row of `b'` is put at the time of `d`, without any error. -/
theorem near_wrong_counterexample {tol a a' b b' d : K} (h0 : 0 ≤ tol) (ha : a' ≠ a) (hb : b' ≠ b) (h1 : |a - a'| ≤ tol) (h2 : |b - b'| ≤ tol)
    (h3 : tol < |a - b|) (h4 : tol < |a' - b|) (h5 : tol < |a - b'|) (h6 : tol < |a' - b'|) (h7 : tol < |a - d|) (h8 : tol < |a' - d|)
    (h9 : tol < |b - d|) (h10 : tol < |d - b'|) :
    timeIdx tol ([], 0) [a, a', b, d, b'] = ([0, 0, 1, 2, 2], 3) := by
  have n : ∀ {x y : K}, tol < |x - y| → x ≠ y := by
    rintro x y h rfl; rw [sub_self, abs_zero] at h; exact absurd h (not_lt.2 h0)
  simp [timeIdx, timeStep, ha.symm, h1, n h3, n h4, n h5, n h6, n h7, n h8, n h9, n h10, hb.symm, not_le.2 h3, not_le.2 h4, not_le.2 h5, not_le.2 h6,
    not_le.2 h7, not_le.2 h8, not_le.2 h9, not_le.2 h10, h2, List.findIdx?_cons]

/-- **C200.** A table of this kind with known antennas and spectral windows cannot be read. -/
theorem near_read_counterexample {α : Type} [Field α] {tol a a' b b' : K} (h0 : 0 ≤ tol) (ha : a' ≠ a) (hb : b' ≠ b) (h1 : |a - a'| ≤ tol)
    (h2 : |b - b'| ≤ tol) (h3 : tol < |a - b|) (h4 : tol < |a' - b|) (h5 : tol < |a - b'|) (h6 : tol < |a' - b'|) {f : File K α} {tel : List Nat}
    {names : List String} {sky : Bool} {off : K} {r1 r2 r3 r4 : Row K α} (hf : f.rows = [r1, r2, r3, r4]) (e1 : r1.time = a) (e2 : r2.time = a')
    (e3 : r3.time = b) (e4 : r4.time = b') (ht : (target tel f r4).isSome) : ∃ e, read tol off sky tel names f = .error e := by
  unfold read
  have hti : timeIdx tol ([], 0) (f.rows.map Row.time) = ([0, 0, 1, 2], 2) := by
    rw [hf]
    simp only [List.map_cons, List.map_nil, e1, e2, e3, e4]
    exact near_index_counterexample h0 ha hb h1 h2 h3 h4 h5 h6
  simp only [hti]
  rw [if_neg (by rw [hf]; simp)]
  cases h : List.findSome? (rowErr tel f 2) (f.rows.zip [0, 0, 1, 2]) with
  | some e => exact ⟨e, rfl⟩
  | none =>
    exfalso
    have := List.findSome?_eq_none_iff.1 h (r4, 2) (by rw [hf]; simp)
    unfold rowErr at this
    obtain ⟨x, hx⟩ := Option.isSome_iff_exists.1 ht
    rw [hx] at this
    simp at this

end Verif.MsCal
