import Verif.BltAxis.RectLemmas
import Verif.BltAxis.OrderProps
import Mathlib.Data.List.Sort
import Mathlib.Data.Prod.Lex

/-!
C11: the rectangularity report.
-/
namespace Verif.BltAxis

variable {τ : Type} [LinearOrder τ]

/-- What the caller must know to pass `blt_order`: the rows really are in that order and no
(baseline, time) pair occurs twice. -/
def HintOK (rows : List (Row τ)) (order : Option (List Key)) : Prop :=
  (∀ ks, order = some ks → SortedBy ks rows) ∧
  (order ≠ none → (rows.map (fun r => (r.bl, r.t))).Nodup)

/-- Strictly increasing distinct pairs that fill a product are the product in order. -/
theorem full_grid {β γ : Type} [LinearOrder β] [LinearOrder γ] (ps : List (β × γ))
    (hs : ps.Pairwise (fun p q => p.1 < q.1 ∨ (p.1 = q.1 ∧ p.2 < q.2)))
    (hn : ps.length = (ps.map Prod.fst).dedup.length * (ps.map Prod.snd).dedup.length) :
    ∃ (B : List β) (T : List γ), B.Nodup ∧ T.Nodup ∧ B.length = (ps.map Prod.fst).dedup.length ∧
      T.length = (ps.map Prod.snd).dedup.length ∧ ps = B.flatMap (fun b => T.map (fun t => (b, t))) := by
  let B := (ps.map Prod.fst).dedup.insertionSort (· ≤ ·)
  let T := (ps.map Prod.snd).dedup.insertionSort (· ≤ ·)
  have hBp : B.Perm (ps.map Prod.fst).dedup := List.perm_insertionSort _ _
  have hTp : T.Perm (ps.map Prod.snd).dedup := List.perm_insertionSort _ _
  have hBn : B.Nodup := hBp.nodup_iff.2 (List.nodup_dedup _)
  have hTn : T.Nodup := hTp.nodup_iff.2 (List.nodup_dedup _)
  have hBs : B.Pairwise (· < ·) := by
    have h1 : B.Pairwise (· ≤ ·) := List.pairwise_insertionSort _ _
    exact (h1.and hBn).imp (fun h => lt_of_le_of_ne h.1 h.2)
  have hTs : T.Pairwise (· < ·) := by
    have h1 : T.Pairwise (· ≤ ·) := List.pairwise_insertionSort _ _
    exact (h1.and hTn).imp (fun h => lt_of_le_of_ne h.1 h.2)
  refine ⟨B, T, hBn, hTn, hBp.length_eq, hTp.length_eq, ?_⟩
  have hg : (B.flatMap (fun b => T.map (fun t => (b, t)))) = B ×ˢ T := rfl
  have hgs : (B.flatMap (fun b => T.map (fun t => (b, t)))).Pairwise
      (fun p q => p.1 < q.1 ∨ (p.1 = q.1 ∧ p.2 < q.2)) := by
    rw [List.pairwise_flatMap]
    refine ⟨?_, ?_⟩
    · intro b _
      rw [List.pairwise_map]
      exact hTs.imp (fun h => Or.inr ⟨rfl, h⟩)
    · refine hBs.imp ?_
      intro b1 b2 h x hx y hy
      obtain ⟨_, _, rfl⟩ := List.mem_map.1 hx
      obtain ⟨_, _, rfl⟩ := List.mem_map.1 hy
      exact Or.inl h
  have hps : ps.Nodup := hs.imp (fun {p q} h e => by
    subst e; rcases h with h | ⟨_, h⟩ <;> exact lt_irrefl _ h)
  have hsub : ps ⊆ B.flatMap (fun b => T.map (fun t => (b, t))) := by
    intro p hp
    rw [hg]
    exact List.mem_product.2 ⟨hBp.mem_iff.2 (List.mem_dedup.2 (List.mem_map_of_mem hp)),
      hTp.mem_iff.2 (List.mem_dedup.2 (List.mem_map_of_mem hp))⟩
  have hperm : ps.Perm (B.flatMap (fun b => T.map (fun t => (b, t)))) := by
    refine (List.subperm_of_subset hps hsub).perm_of_length_le ?_
    rw [hg, List.length_product, hBp.length_eq, hTp.length_eq, ← hn]
  refine List.Perm.eq_of_pairwise ?_ hs hgs hperm
  intro p q _ _ h1 h2
  rcases h1 with h1 | ⟨h1, h1'⟩ <;> rcases h2 with h2 | ⟨h2, h2'⟩
  · exact absurd h1 (lt_asymm h2)
  · exact absurd h1 (by rw [h2]; exact lt_irrefl _)
  · exact absurd h2 (by rw [h1]; exact lt_irrefl _)
  · exact absurd h1' (lt_asymm h2')

theorem len_nbls {rows : List (Row τ)} {nbls ntimes : Nat} (hc : CountsOK rows nbls ntimes) (hr : rows ≠ []) :
    0 < nbls ∧ 0 < ntimes := by
  obtain ⟨hb, ht⟩ := hc
  match rows, hr with
  | r :: rs, _ =>
    constructor
    · rw [← hb]; exact List.length_pos_of_mem (List.mem_dedup.2 (by simp : r.bl ∈ _))
    · rw [← ht]; exact List.length_pos_of_mem (List.mem_dedup.2 (by simp : r.t ∈ _))

/-- All rows on one baseline. -/
theorem major_one_bl {rows : List (Row τ)} {nbls ntimes : Nat} (hc : CountsOK rows nbls ntimes)
    (hl : rows.length = nbls * ntimes) (h1 : nbls = 1) :
    BaselineMajor (rows.map Row.t) (rows.map Row.bl) nbls ntimes := by
  obtain ⟨hb, ht⟩ := hc
  subst h1
  have hd := dedup_one hb
  obtain ⟨b, hB⟩ := List.length_eq_one_iff.1 hb
  refine ⟨[b], rows.map Row.t, by simp, ?_, rfl, by simp [hl], by simp, ?_⟩
  · apply nodup_of_dedup_length; rw [ht]; simp [hl]
  · simp only [List.flatMap_cons, List.flatMap_nil, List.append_nil, List.map_map]
    apply List.map_congr_left
    intro r hr
    exact hd _ (List.mem_map_of_mem hr) _ (by rw [← List.mem_dedup, hB]; simp)

/-- All rows at one time. -/
theorem major_one_time {rows : List (Row τ)} {nbls ntimes : Nat} (hc : CountsOK rows nbls ntimes)
    (hl : rows.length = nbls * ntimes) (h1 : ntimes = 1) :
    TimeMajor (rows.map Row.t) (rows.map Row.bl) nbls ntimes := by
  obtain ⟨hb, ht⟩ := hc
  subst h1
  have hd := dedup_one ht
  obtain ⟨t, hT⟩ := List.length_eq_one_iff.1 ht
  refine ⟨rows.map Row.bl, [t], ?_, by simp, by simp [hl], rfl, ?_, by simp⟩
  · apply nodup_of_dedup_length; rw [hb]; simp [hl]
  · simp only [List.flatMap_cons, List.flatMap_nil, List.append_nil, List.map_map]
    apply List.map_congr_left
    intro r hr
    exact hd _ (List.mem_map_of_mem hr) _ (by rw [← List.mem_dedup, hT]; simp)

theorem lex_bt {p q : Row τ} (h : lexLe [.baseline, .time] p q) (hne : (p.bl, p.t) ≠ (q.bl, q.t)) :
    p.bl < q.bl ∨ (p.bl = q.bl ∧ p.t < q.t) := by
  have h' : (p.bl ≤ q.bl ∧ ¬ q.bl ≤ p.bl) ∨ (p.bl ≤ q.bl ∧
      ((p.t ≤ q.t ∧ ¬ q.t ≤ p.t) ∨ (p.t ≤ q.t ∧ True))) := h
  have h2 : p.bl ≤ q.bl ∧ (p.bl < q.bl ∨ p.t ≤ q.t) := by
    rcases h' with ⟨h, h'⟩ | ⟨h, h' | h'⟩
    · exact ⟨h, Or.inl (by omega)⟩
    · exact ⟨h, Or.inr h'.1⟩
    · exact ⟨h, Or.inr h'.1⟩
  rcases lt_or_eq_of_le h2.1 with h3 | h3
  · exact Or.inl h3
  · refine Or.inr ⟨h3, lt_of_le_of_ne ?_ ?_⟩
    · rcases h2.2 with h4 | h4
      · omega
      · exact h4
    · intro e; exact hne (by rw [h3, e])

theorem lex_tb {p q : Row τ} (h : lexLe [.time, .baseline] p q) (hne : (p.bl, p.t) ≠ (q.bl, q.t)) :
    p.t < q.t ∨ (p.t = q.t ∧ p.bl < q.bl) := by
  have h' : (p.t ≤ q.t ∧ ¬ q.t ≤ p.t) ∨ (p.t ≤ q.t ∧
      ((p.bl ≤ q.bl ∧ ¬ q.bl ≤ p.bl) ∨ (p.bl ≤ q.bl ∧ True))) := h
  have h2 : p.t ≤ q.t ∧ (p.t < q.t ∨ p.bl ≤ q.bl) := by
    rcases h' with ⟨h, h'⟩ | ⟨h, h' | h'⟩
    · exact ⟨h, Or.inl (lt_of_not_ge h')⟩
    · exact ⟨h, Or.inr h'.1⟩
    · exact ⟨h, Or.inr h'.1⟩
  rcases lt_or_eq_of_le h2.1 with h3 | h3
  · exact Or.inl h3
  · refine Or.inr ⟨h3, lt_of_le_of_ne ?_ ?_⟩
    · rcases h2.2 with h4 | h4
      · exact absurd h4 (by rw [h3]; exact lt_irrefl _)
      · exact h4
    · intro e; exact hne (by rw [h3, e])

theorem flatMap_pairs {β γ : Type} (B : List β) (T : List γ) :
    (B.flatMap (fun b => T.map (fun t => (b, t)))).map Prod.fst = B.flatMap (fun b => T.map (fun _ => b)) ∧
    (B.flatMap (fun b => T.map (fun t => (b, t)))).map Prod.snd = B.flatMap (fun _ => T) := by
  constructor
  · simp [List.map_flatMap, Function.comp_def]
  · simp [List.map_flatMap, Function.comp_def]

theorem hint_bt {rows : List (Row τ)} {nbls ntimes : Nat} (hc : CountsOK rows nbls ntimes)
    (hl : rows.length = nbls * ntimes) (hs : SortedBy [.baseline, .time] rows)
    (hn : (rows.map (fun r => (r.bl, r.t))).Nodup) :
    BaselineMajor (rows.map Row.t) (rows.map Row.bl) nbls ntimes := by
  obtain ⟨hb, ht⟩ := hc
  have e1 : (rows.map (fun r => (r.bl, r.t))).map Prod.fst = rows.map Row.bl := by simp [Function.comp_def]
  have e2 : (rows.map (fun r => (r.bl, r.t))).map Prod.snd = rows.map Row.t := by simp [Function.comp_def]
  obtain ⟨B, T, h1, h2, h3, h4, h5⟩ := full_grid (rows.map (fun r => (r.bl, r.t))) (by
      rw [List.pairwise_map]
      have hn' := List.pairwise_map.1 hn
      exact (hs.and hn').imp (fun {p q} h => lex_bt h.1 h.2)) (by rw [e1, e2, hb, ht]; simp [hl])
  rw [e1, hb] at h3
  rw [e2, ht] at h4
  refine ⟨B, T, h1, h2, h3, h4, ?_, ?_⟩
  · rw [← e2, h5, (flatMap_pairs B T).2]
  · rw [← e1, h5, (flatMap_pairs B T).1]

theorem hint_tb {rows : List (Row τ)} {nbls ntimes : Nat} (hc : CountsOK rows nbls ntimes)
    (hl : rows.length = nbls * ntimes) (hs : SortedBy [.time, .baseline] rows)
    (hn : (rows.map (fun r => (r.bl, r.t))).Nodup) :
    TimeMajor (rows.map Row.t) (rows.map Row.bl) nbls ntimes := by
  obtain ⟨hb, ht⟩ := hc
  have e1 : (rows.map (fun r => (r.t, r.bl))).map Prod.fst = rows.map Row.t := by simp [Function.comp_def]
  have e2 : (rows.map (fun r => (r.t, r.bl))).map Prod.snd = rows.map Row.bl := by simp [Function.comp_def]
  obtain ⟨T, B, h1, h2, h3, h4, h5⟩ := full_grid (rows.map (fun r => (r.t, r.bl))) (by
      rw [List.pairwise_map]
      have hn' := List.pairwise_map.1 hn
      exact (hs.and hn').imp (fun {p q} h => lex_tb h.1 h.2)) (by rw [e1, e2, hb, ht, Nat.mul_comm]; simp [hl])
  rw [e1, ht] at h3
  rw [e2, hb] at h4
  refine ⟨B, T, h2, h1, h4, h3, ?_, ?_⟩
  · rw [← e1, h5, (flatMap_pairs T B).1]
  · rw [← e2, h5, (flatMap_pairs T B).2]

/-- Everything at once: what each of the possible answers means. -/
theorem rect_sound (rows : List (Row τ)) (nbls ntimes : Nat) (order : Option (List Key)) (hr : rows ≠ [])
    (hc : CountsOK rows nbls ntimes) (hh : HintOK rows order) :
    (determineRectangularity (rows.map Row.t) (rows.map Row.bl) nbls ntimes order = (true, true) →
      BaselineMajor (rows.map Row.t) (rows.map Row.bl) nbls ntimes) ∧
    (determineRectangularity (rows.map Row.t) (rows.map Row.bl) nbls ntimes order = (true, false) →
      TimeMajor (rows.map Row.t) (rows.map Row.bl) nbls ntimes) ∧
    determineRectangularity (rows.map Row.t) (rows.map Row.bl) nbls ntimes order ≠ (false, true) := by
  obtain ⟨p1, p2⟩ := len_nbls hc hr
  have hc' := hc
  obtain ⟨hb, ht⟩ := hc
  unfold determineRectangularity
  split
  · simp
  rename_i hl
  have hl' : rows.length = nbls * ntimes := by simpa using hl
  split
  · rename_i h1
    refine ⟨fun _ => major_one_bl hc' hl' (Nat.eq_one_of_mul_eq_one_right h1), by simp, by simp⟩
  split
  · exact ⟨fun _ => major_one_bl hc' hl' ‹_›, by simp, by simp⟩
  split
  · exact ⟨by simp, fun _ => major_one_time hc' hl' ‹_›, by simp⟩
  split
  · rename_i h
    exact ⟨fun _ => hint_bt hc' hl' (hh.1 _ h) (hh.2 (by simp [h])), by simp, by simp⟩
  split
  · rename_i h
    exact ⟨by simp, fun _ => hint_tb hc' hl' (hh.1 _ h) (hh.2 (by simp [h])), by simp⟩
  dsimp only
  split
  · simp
  split
  · split
    · rename_i h
      simp only [Bool.and_eq_true] at h
      refine ⟨fun _ => ?_, by simp, by simp⟩
      obtain ⟨B, T, h1⟩ := grid_structure (rows.map Row.t) (rows.map Row.bl) nbls ntimes (by simpa using hl')
        (by simpa using hl') p1 p2 ht hb h.1 h.2
      exact ⟨B, T, h1⟩
    · simp
  · split
    · rename_i h
      simp only [Bool.and_eq_true] at h
      refine ⟨by simp, fun _ => ?_, by simp⟩
      obtain ⟨T, B, h1, h2, h3, h4, h5, h6⟩ := grid_structure (rows.map Row.bl) (rows.map Row.t) ntimes nbls
        (by rw [Nat.mul_comm]; simpa using hl') (by rw [Nat.mul_comm]; simpa using hl') p2 p1 hb ht h.2 h.1
      exact ⟨B, T, h2, h1, h4, h3, h6, h5⟩
    · simp

/-- C11: (True, True) means baseline by baseline on one common list of times. -/
theorem rect_baseline_major (rows : List (Row τ)) (nbls ntimes : Nat) (order : Option (List Key)) (hr : rows ≠ [])
    (hc : CountsOK rows nbls ntimes) (hh : HintOK rows order)
    (h : determineRectangularity (rows.map Row.t) (rows.map Row.bl) nbls ntimes order = (true, true)) :
    BaselineMajor (rows.map Row.t) (rows.map Row.bl) nbls ntimes := (rect_sound rows _ _ order hr hc hh).1 h

/-- C11: (True, False) means time by time on one common list of baselines. -/
theorem rect_time_major (rows : List (Row τ)) (nbls ntimes : Nat) (order : Option (List Key)) (hr : rows ≠ [])
    (hc : CountsOK rows nbls ntimes) (hh : HintOK rows order)
    (h : determineRectangularity (rows.map Row.t) (rows.map Row.bl) nbls ntimes order = (true, false)) :
    TimeMajor (rows.map Row.t) (rows.map Row.bl) nbls ntimes := (rect_sound rows _ _ order hr hc hh).2.1 h

/-- Three baselines by two times, unsorted baselines, no hint. -/
def rectRows : List (Row Nat) :=
  [⟨7, 0, 1, 30⟩, ⟨9, 0, 1, 30⟩, ⟨7, 1, 2, 10⟩, ⟨9, 1, 2, 10⟩, ⟨7, 0, 2, 20⟩, ⟨9, 0, 2, 20⟩]

example : rectRows ≠ [] ∧ CountsOK rectRows 3 2 ∧ HintOK rectRows none ∧
    determineRectangularity (rectRows.map Row.t) (rectRows.map Row.bl) 3 2 none = (true, true) := by
  refine ⟨by decide, ⟨by decide, by decide⟩, ⟨by simp, by simp⟩, by decide⟩

example : demoRows ≠ [] ∧ CountsOK demoRows 2 2 ∧ HintOK demoRows (some [.time, .baseline]) ∧
    determineRectangularity (demoRows.map Row.t) (demoRows.map Row.bl) 2 2 (some [.time, .baseline])
      = (true, false) := by
  refine ⟨by decide, ⟨by decide, by decide⟩, ⟨?_, fun _ => by decide⟩, by decide⟩
  intro ks h
  obtain rfl : [Key.time, Key.baseline] = ks := by simpa using h
  exact blt_order_sound demoRows 2 2 _ ⟨by decide, by decide⟩ (by decide)

omit [LinearOrder τ] in
theorem baselineMajor_length {times : List τ} {bls : List Nat} {nbls ntimes : Nat}
    (h : BaselineMajor times bls nbls ntimes) : times.length = nbls * ntimes := by
  obtain ⟨B, T, _, _, rfl, rfl, rfl, _⟩ := h
  exact flatMap_const_length B T

omit [LinearOrder τ] in
theorem timeMajor_length {times : List τ} {bls : List Nat} {nbls ntimes : Nat}
    (h : TimeMajor times bls nbls ntimes) : times.length = nbls * ntimes := by
  obtain ⟨B, T, _, _, rfl, rfl, rfl, _⟩ := h
  rw [flatMap_spread_length, Nat.mul_comm]

theorem two_of {β : Type} {l : List β} (h : 2 ≤ l.length) : ∃ a b l', l = a :: b :: l' := by
  match l, h with
  | a :: b :: l', _ => exact ⟨a, b, l', rfl⟩

theorem one_of {β : Type} {l : List β} (h : 1 ≤ l.length) : ∃ a l', l = a :: l' := by
  match l, h with
  | a :: l', _ => exact ⟨a, l', rfl⟩

/-- C11, the other direction: rectangular data are always recognised, and with more than one baseline and more
than one time the reported major axis is the right one. -/
theorem rect_complete (rows : List (Row τ)) (nbls ntimes : Nat) (hb1 : 1 < nbls) (ht1 : 1 < ntimes) :
    (BaselineMajor (rows.map Row.t) (rows.map Row.bl) nbls ntimes →
      determineRectangularity (rows.map Row.t) (rows.map Row.bl) nbls ntimes none = (true, true)) ∧
    (TimeMajor (rows.map Row.t) (rows.map Row.bl) nbls ntimes →
      determineRectangularity (rows.map Row.t) (rows.map Row.bl) nbls ntimes none = (true, false)) := by
  generalize rows.map Row.t = times
  generalize rows.map Row.bl = bls
  have hm : ¬ nbls * ntimes = 1 := fun h => by have := Nat.eq_one_of_mul_eq_one_right h; omega
  have hb : ¬ nbls = 1 := by omega
  have ht : ¬ ntimes = 1 := by omega
  constructor
  · intro h
    have hl := baselineMajor_length h
    obtain ⟨B, T, hB, hT, rfl, rfl, h1, h2⟩ := h
    unfold determineRectangularity
    rw [if_neg (by simp [hl]), if_neg hm, if_neg hb, if_neg ht, if_neg (by simp), if_neg (by simp)]
    have hg := grid_passes B T
    rw [← h1, ← h2] at hg
    obtain ⟨t0, t1, T', rfl⟩ := two_of (l := T) (by omega)
    obtain ⟨b0, B', rfl⟩ := one_of (l := B) (by omega)
    have e0 : times[0]? = some t0 := by rw [h1]; simp
    have e1 : times[1]? = some t1 := by rw [h1]; simp
    have hne : t1 ≠ t0 := by
      intro e; subst e; simp at hT
    have hd : decide (times[1]? = times[0]?) = false := by rw [e0, e1]; simp [hne]
    simp only [hd, Bool.not_false, Bool.not_true, Bool.false_and, Bool.false_eq_true, if_false, if_true,
      hg.1, hg.2, Bool.and_self]
  · intro h
    have hl := timeMajor_length h
    obtain ⟨B, T, hB, hT, rfl, rfl, h1, h2⟩ := h
    unfold determineRectangularity
    rw [if_neg (by simp [hl]), if_neg hm, if_neg hb, if_neg ht, if_neg (by simp), if_neg (by simp)]
    have hg := grid_passes T B
    rw [← h1, ← h2] at hg
    obtain ⟨b0, b1, B', rfl⟩ := two_of (l := B) (by omega)
    obtain ⟨t0, T', rfl⟩ := one_of (l := T) (by omega)
    have e0 : times[0]? = some t0 := by rw [h1]; simp
    have e1 : times[1]? = some t0 := by rw [h1]; simp
    have f0 : bls[0]? = some b0 := by rw [h2]; simp
    have f1 : bls[1]? = some b1 := by rw [h2]; simp
    have hne : b1 ≠ b0 := by
      intro e; subst e; simp at hB
    have hd : decide (times[1]? = times[0]?) = true := by rw [e0, e1]; simp
    have hd' : decide (bls[1]? = bls[0]?) = false := by rw [f0, f1]; simp [hne]
    simp only [hd, hd', Bool.not_false, Bool.not_true, Bool.and_false, Bool.false_eq_true, if_false, if_true,
      hg.1, hg.2, Bool.and_self]

example : BaselineMajor (rectRows.map Row.t) (rectRows.map Row.bl) 3 2 :=
  ⟨[30, 10, 20], [7, 9], by decide, by decide, rfl, rfl, by decide, by decide⟩

/-- C11, the fault: when the caller supplies `blt_order` the answer is given from the row count alone.  Here the
rows are sorted by time then baseline and there are 2 × 2 of them, but one pair occurs twice and one is
missing. -/
theorem rect_hint_counterexample :
    let rows : List (Row Nat) := [⟨0, 0, 1, 10⟩, ⟨0, 0, 1, 10⟩, ⟨5, 0, 1, 10⟩, ⟨5, 1, 2, 20⟩]
    CountsOK rows 2 2 ∧ SortedBy [.time, .baseline] rows ∧
    determineRectangularity (rows.map Row.t) (rows.map Row.bl) 2 2 (some [.time, .baseline]) = (true, false) ∧
    ¬ TimeMajor (rows.map Row.t) (rows.map Row.bl) 2 2 := by
  intro rows
  refine ⟨⟨by decide +kernel, by decide +kernel⟩, ?_, by decide +kernel, ?_⟩
  · simp [SortedBy, rows, lexLe, keyLt, keyLe]
  · intro h
    have := (rect_complete rows 2 2 (by decide) (by decide)).2 h
    revert this
    decide +kernel

end Verif.BltAxis
