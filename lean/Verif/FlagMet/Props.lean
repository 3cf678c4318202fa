import Verif.FlagMet.Spec
import Verif.Collapse.Props
import Mathlib.Tactic.Linarith
import Mathlib.Tactic.FieldSimp

namespace Verif.FlagMet
open Verif.Np
open Verif.Pol (Str)
open Verif.Collapse (Val Out mean absmean quadmean meanSq finite wsum wxsum w2sum finite_cons mean_collapse_eq)

variable {K : Type} [Field K] [LinearOrder K] [IsStrictOrderedRing K]

/-! ## Averages -/

omit [LinearOrder K] [IsStrictOrderedRing K] in
theorem sums (l : List (Entry K)) :
    wsum (finite (l.map (·.2)) (l.map (·.1))) = tot l ∧ wxsum (finite (l.map (·.2)) (l.map (·.1))) = dot l ∧
    w2sum (finite (l.map (·.2)) (l.map (·.1))) = totSq l := by
  induction l with
  | nil => exact ⟨rfl, rfl, rfl⟩
  | cons e l ih =>
    obtain ⟨h1, h2, h3⟩ := ih
    obtain ⟨w, v⟩ := e
    simp only [List.map_cons]
    rw [finite_cons]
    unfold tot dot totSq wsum wxsum w2sum at *
    cases v with
    | fin x => simp [wt, wx, h1, h2, h3]
    | inf b => simp [wt, wx, h1, h2, h3]
    | nan => simp [wt, wx, h1, h2, h3]

theorem mean_is (l : List (Entry K)) (hn : ∀ e ∈ l, e.2 ≠ .nan) :
    IsMean l (mean (l.map (·.2)) (some (l.map (·.1)))).mean (mean (l.map (·.2)) (some (l.map (·.1)))).weight ∧
    (mean (l.map (·.2)) (some (l.map (·.1)))).weightSq = totSq l := by
  have hn' : Val.nan ∉ l.map (·.2) := by
    intro h
    obtain ⟨e, he, hv⟩ := List.mem_map.1 h
    exact hn e he hv
  obtain ⟨h1, h2, h3⟩ := mean_collapse_eq (l.map (·.2)) (l.map (·.1)) (by simp) hn'
  obtain ⟨s1, s2, s3⟩ := sums l
  rw [h1, h2, h3, s1, s2, s3]
  refine ⟨⟨rfl, ?_, ?_⟩, rfl⟩
  · intro h
    exact if_pos h
  · intro h
    exact if_neg h

omit [IsStrictOrderedRing K] in
theorem pre_nan (m : Method) (v : Val K) : pre m v = .nan ↔ v = .nan := by
  unfold pre
  cases m <;> cases v <;> simp

omit [IsStrictOrderedRing K] in
theorem wt_pre (m : Method) (e : Entry K) : wt (e.1, pre m e.2) = wt e := by
  obtain ⟨w, v⟩ := e
  unfold pre
  cases m <;> cases v <;> rfl

omit [IsStrictOrderedRing K] in
theorem tot_pre (m : Method) (l : List (Entry K)) : tot (l.map (fun e => (e.1, pre m e.2))) = tot l := by
  unfold tot
  rw [List.map_map]
  congr 1
  exact List.map_congr_left (fun e _ => wt_pre m e)

omit [IsStrictOrderedRing K] in
theorem totSq_pre (m : Method) (l : List (Entry K)) : totSq (l.map (fun e => (e.1, pre m e.2))) = totSq l := by
  unfold totSq
  rw [List.map_map]
  congr 1
  refine List.map_congr_left (fun e _ => ?_)
  simp only [Function.comp_apply]
  rw [wt_pre m e]

theorem pre_nonneg (m : Method) (hm : m = .absmean ∨ m = .quadmean) (l : List (Entry K)) (hw : ∀ e ∈ l, 0 ≤ e.1) :
    0 ≤ dot (l.map (fun e => (e.1, pre m e.2))) := by
  unfold dot
  refine List.sum_nonneg ?_
  intro x hx
  obtain ⟨e, he, rfl⟩ := List.mem_map.1 hx
  obtain ⟨e', he', rfl⟩ := List.mem_map.1 he
  have := hw e' he'
  obtain ⟨w, v⟩ := e'
  rcases hm with rfl | rfl <;> cases v <;> simp only [pre, wx]
  · exact mul_nonneg this (abs_nonneg _)
  · exact le_refl _
  · exact le_refl _
  · exact mul_nonneg this (mul_self_nonneg _)
  · exact le_refl _
  · exact le_refl _

/-- A square root, exactly. -/
def IsSqrt (sqrt : K → K) : Prop := ∀ x, 0 ≤ x → 0 ≤ sqrt x ∧ sqrt x * sqrt x = x

omit [IsStrictOrderedRing K] in
theorem thr_pos [IsStrictOrderedRing K] : (0 : K) < thr := by
  unfold thr
  positivity

/-- `utils.collapse` gives the average. -/
theorem numeric_avg (sqrt : K → K) (m : Method) (hs : m = .quadmean → IsSqrt sqrt) (g : List (Val K) → Option (List K) → Out K)
    (h : numeric sqrt m = some g) (l : List (Entry K)) (hl : Plain l) :
    Avg m l (g (l.map (·.2)) (some (l.map (·.1)))).mean (g (l.map (·.2)) (some (l.map (·.1)))).weight ∧
    (g (l.map (·.2)) (some (l.map (·.1)))).weightSq = totSq l := by
  have hn : ∀ e ∈ l.map (fun e : Entry K => ((e.1, pre m e.2) : Entry K)), e.2 ≠ .nan := by
    intro e he
    obtain ⟨e', he', rfl⟩ := List.mem_map.1 he
    exact fun hc => (hl e' he').1 ((pre_nan m e'.2).1 hc)
  obtain ⟨h1, h2⟩ := mean_is _ hn
  rw [totSq_pre] at h2
  have e1 : (l.map (fun e : Entry K => ((e.1, pre m e.2) : Entry K))).map (·.1) = l.map (·.1) := by
    rw [List.map_map]; rfl
  have e2 : (l.map (fun e : Entry K => ((e.1, pre m e.2) : Entry K))).map (·.2) = (l.map (·.2)).map (pre m) := by
    rw [List.map_map, List.map_map]; rfl
  rw [e1, e2] at h1 h2
  cases m with
  | mean =>
    cases h
    have : (l.map (·.2)).map (pre (K := K) .mean) = l.map (·.2) := by
      conv_rhs => rw [← List.map_id (l.map (·.2))]
      exact List.map_congr_left (fun v _ => by cases v <;> rfl)
    rw [this] at h1 h2
    exact ⟨⟨_, h1, by unfold Post; rfl⟩, h2⟩
  | absmean =>
    cases h
    have : (l.map (·.2)).map (pre (K := K) .absmean) = (l.map (·.2)).map Val.abs :=
      List.map_congr_left (fun v _ => by cases v <;> rfl)
    rw [this] at h1 h2
    exact ⟨⟨_, h1, by unfold Post; rfl⟩, h2⟩
  | quadmean =>
    cases h
    have : (l.map (·.2)).map (pre (K := K) .quadmean) = (l.map (·.2)).map (fun v => v.abs.sq) := by
      refine List.map_congr_left (fun v _ => ?_)
      cases v with
      | fin x => simp [pre, Val.abs, Val.sq, pow_two]
      | inf b => rfl
      | nan => rfl
    rw [this] at h1 h2
    refine ⟨⟨_, h1, ?_⟩, h2⟩
    change Post .quadmean (meanSq (l.map (·.2)) (some (l.map (·.1)))).mean
      (match (meanSq (l.map (·.2)) (some (l.map (·.1)))).mean with
      | .fin x => .fin (sqrt x)
      | .inf false => .inf false
      | _ => .nan)
    obtain ⟨-, h4, h5⟩ := h1
    have hm : (meanSq (l.map (·.2)) (some (l.map (·.1)))).mean = (mean ((l.map (·.2)).map (fun v => v.abs.sq)) (some (l.map (·.1)))).mean := rfl
    by_cases ht : thr < tot (l.map (fun e : Entry K => ((e.1, pre .quadmean e.2) : Entry K)))
    · rw [hm, h4 ht]
      have hx : 0 ≤ dot (l.map (fun e : Entry K => ((e.1, pre .quadmean e.2) : Entry K))) /
          tot (l.map (fun e : Entry K => ((e.1, pre .quadmean e.2) : Entry K))) :=
        div_nonneg (pre_nonneg _ (Or.inr rfl) l (fun e he => (hl e he).2)) (le_of_lt (lt_trans thr_pos ht))
      exact ⟨_, rfl, hs rfl _ hx⟩
    · rw [hm, h5 ht]
      rfl
  | or => cases h
  | and => cases h
  | other => cases h

omit [IsStrictOrderedRing K] in
theorem numeric_iff (sqrt : K → K) (m : Method) : numeric sqrt m ≠ none ↔ Numeric m := by
  unfold numeric Numeric
  cases m <;> simp

omit [IsStrictOrderedRing K] in
/-- Averages depend on two sums. -/
theorem avg_congr (m : Method) (l l' : List (Entry K)) (ht : tot l = tot l')
    (hd : dot (l.map (fun e => (e.1, pre m e.2))) = dot (l'.map (fun e => (e.1, pre m e.2)))) (v : Val K) (w : K) :
    Avg m l v w ↔ Avg m l' v w := by
  unfold Avg IsMean
  rw [tot_pre, tot_pre, ht, hd]

omit [LinearOrder K] [IsStrictOrderedRing K] in
theorem tot_perm {l l' : List (Entry K)} (h : l.Perm l') : tot l = tot l' := (h.map wt).sum_eq

omit [LinearOrder K] [IsStrictOrderedRing K] in
theorem dot_perm {l l' : List (Entry K)} (h : l.Perm l') : dot l = dot l' := (h.map wx).sum_eq

omit [IsStrictOrderedRing K] in
theorem avg_perm (m : Method) {l l' : List (Entry K)} (h : l.Perm l') (v : Val K) (w : K) : Avg m l v w ↔ Avg m l' v w :=
  avg_congr m l l' (tot_perm h) (dot_perm (h.map _)) v w

omit [IsStrictOrderedRing K] in
theorem isMean_unique {l : List (Entry K)} {v v' : Val K} {w w' : K} (h : IsMean l v w) (h' : IsMean l v' w') :
    v = v' ∧ w = w' := by
  obtain ⟨h1, h2, h3⟩ := h
  obtain ⟨h1', h2', h3'⟩ := h'
  refine ⟨?_, by rw [h1, h1']⟩
  by_cases ht : thr < tot l
  · rw [h2 ht, h2' ht]
  · rw [h3 ht, h3' ht]

/-- There is one average. -/
theorem avg_unique {m : Method} {l : List (Entry K)} {v v' : Val K} {w w' : K} (h : Avg m l v w) (h' : Avg m l v' w') :
    v = v' ∧ w = w' := by
  obtain ⟨s, h1, h2⟩ := h
  obtain ⟨s', h1', h2'⟩ := h'
  obtain ⟨rfl, rfl⟩ := isMean_unique h1 h1'
  refine ⟨?_, rfl⟩
  unfold Post at h2 h2'
  cases m <;> cases s <;> simp only at h2 h2' <;> try (rw [h2, h2'])
  obtain ⟨y, rfl, hy, e⟩ := h2
  obtain ⟨y', rfl, hy', e'⟩ := h2'
  rw [(mul_self_inj hy hy').1 (e.trans e'.symm)]

/-- The average stands for its entries: same weight, same weighted sum. -/
theorem stands (m : Method) (g : List (Entry K)) (hg : Plain g) (hc : Clear g) (v : Val K) (w : K) (h : Avg m g v w) :
    wt (w, v) = tot g ∧ wx (w, pre m v) = dot (g.map (fun e => (e.1, pre m e.2))) ∧ v ≠ .nan ∧ 0 ≤ w := by
  obtain ⟨s, ⟨h1, h2, h3⟩, h4⟩ := h
  rw [tot_pre] at h1 h2 h3
  subst h1
  rcases hc with h0 | hpos
  · have hs : s = .inf false := h3 (by rw [h0]; exact not_lt.2 (le_of_lt thr_pos))
    subst hs
    have hv : v = .inf false := by
      unfold Post at h4
      cases m <;> exact h4
    subst hv
    have hd : dot (g.map (fun e => (e.1, pre m e.2))) = 0 := by
      have hz : ∀ e ∈ g, wt e = 0 := by
        have hnn : ∀ x ∈ g.map wt, 0 ≤ x := by
          intro x hx
          obtain ⟨e, he, rfl⟩ := List.mem_map.1 hx
          unfold wt
          split
          · exact (hg e he).2
          · exact le_refl _
        intro e he
        have hle := List.single_le_sum hnn (wt e) (List.mem_map_of_mem he)
        have : 0 ≤ wt e := hnn _ (List.mem_map_of_mem he)
        have hsum : (g.map wt).sum = 0 := h0
        linarith
      unfold dot
      refine List.sum_eq_zero ?_
      intro x hx
      obtain ⟨e, he, rfl⟩ := List.mem_map.1 hx
      obtain ⟨e', he', rfl⟩ := List.mem_map.1 he
      have h0 := hz e' he'
      rw [← wt_pre m e'] at h0
      unfold wx
      unfold wt at h0
      split
      · rename_i x hx
        rw [hx] at h0
        dsimp only at h0 ⊢
        rw [h0, zero_mul]
      · rfl
    refine ⟨by rw [h0]; rfl, ?_, by simp, le_of_eq h0.symm⟩
    rw [hd]
    unfold pre wx
    cases m <;> rfl
  · have hs := h2 hpos
    subst hs
    have hne : tot g ≠ 0 := ne_of_gt (lt_trans thr_pos hpos)
    have hw : 0 ≤ tot g := le_of_lt (lt_trans thr_pos hpos)
    have hmul : tot g * (dot (g.map (fun e => (e.1, pre m e.2))) / tot g) = dot (g.map (fun e => (e.1, pre m e.2))) :=
      mul_div_cancel₀ _ hne
    unfold Post at h4
    cases m with
    | quadmean =>
      obtain ⟨y, rfl, hy, e⟩ := h4
      refine ⟨rfl, ?_, by simp, hw⟩
      change tot g * (y * y) = _
      rw [e, hmul]
    | absmean =>
      subst h4
      refine ⟨rfl, ?_, by simp, hw⟩
      change tot g * |_| = _
      rw [abs_of_nonneg (div_nonneg (pre_nonneg _ (Or.inl rfl) g (fun e he => (hg e he).2)) hw), hmul]
    | mean => subst h4; exact ⟨rfl, hmul, by simp, hw⟩
    | or => subst h4; exact ⟨rfl, hmul, by simp, hw⟩
    | and => subst h4; exact ⟨rfl, hmul, by simp, hw⟩
    | other => subst h4; exact ⟨rfl, hmul, by simp, hw⟩

omit [LinearOrder K] [IsStrictOrderedRing K] in
theorem tot_append (l l' : List (Entry K)) : tot (l ++ l') = tot l + tot l' := by
  unfold tot; simp

omit [LinearOrder K] [IsStrictOrderedRing K] in
theorem dot_append (l l' : List (Entry K)) : dot (l ++ l') = dot l + dot l' := by
  unfold dot; simp

/-- Averages of averages are averages of everything. -/
theorem avg_nested (m : Method) (gs : List (List (Entry K))) (outs : List (Entry K))
    (h : List.Forall₂ (fun g e => Avg m g e.2 e.1) gs outs) (hp : ∀ g ∈ gs, Plain g ∧ Clear g) :
    Plain outs ∧ ∀ v w, Avg m outs v w ↔ Avg m gs.flatten v w := by
  have key : Plain outs ∧ tot outs = tot gs.flatten ∧
      dot (outs.map (fun e => (e.1, pre m e.2))) = dot (gs.flatten.map (fun e => (e.1, pre m e.2))) := by
    induction h with
    | nil => exact ⟨(fun e he => nomatch he), rfl, rfl⟩
    | @cons g e gs outs h1 h2 ih =>
      obtain ⟨a, b, d⟩ := ih (fun g hg => hp g (List.mem_cons_of_mem _ hg))
      obtain ⟨hp1, hp2⟩ := hp g List.mem_cons_self
      obtain ⟨s1, s2, s3, s4⟩ := stands m g hp1 hp2 e.2 e.1 h1
      refine ⟨?_, ?_, ?_⟩
      · intro x hx
        rcases List.mem_cons.1 hx with rfl | hx
        · exact ⟨s3, s4⟩
        · exact a x hx
      · rw [List.flatten_cons, tot_append, ← b, ← s1]
        rfl
      · rw [List.flatten_cons, List.map_append, dot_append, ← d, ← s2]
        rfl
  exact ⟨key.1, fun v w => avg_congr m _ _ key.2.1 key.2.2 v w⟩

/-- The first entries may be averaged first. -/
theorem avg_first (m : Method) (g l : List (Entry K)) (e : Entry K) (h : Avg m g e.2 e.1) (hg : Plain g) (hc : Clear g)
    (v : Val K) (w : K) : Avg m (e :: l) v w ↔ Avg m (g ++ l) v w := by
  obtain ⟨s1, s2, -, -⟩ := stands m g hg hc e.2 e.1 h
  refine avg_congr m _ _ ?_ ?_ v w
  · rw [tot_append, ← s1]; rfl
  · rw [List.map_append, dot_append, ← s2]; rfl

end Verif.FlagMet
