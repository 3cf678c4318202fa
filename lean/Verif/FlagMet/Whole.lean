import Verif.FlagMet.Comb

namespace Verif.FlagMet
open Verif.Np
open Verif.Pol (Str)
open Verif.Collapse (Val Out mean absmean quadmean)

variable {K : Type} [Field K] [LinearOrder K] [IsStrictOrderedRing K]

/-! ## Metrics of one object -/

/-- Metric and weight at positions. -/
def ents (v : Arr (Val K)) (w : Arr K) (l : List (Nat × Nat × Nat × Nat)) : List (Entry K) :=
  l.map (fun e => (w e.1 e.2.1 e.2.2.1 e.2.2.2, v e.1 e.2.1 e.2.2.1 e.2.2.2))

theorem collapseData_metric (sqrt : K → K) (m : Method) (hs : m = .quadmean → IsSqrt sqrt) (v : Arr (Val K)) (w : Arr K)
    (es : Nat → Nat → Nat → Nat → List (Nat × Nat × Nat × Nat)) (d : Data K × Arr K)
    (h : collapseData sqrt m (.metric v w) es = some d) :
    ∃ v' w', d.1 = .metric v' w' ∧ ∀ i r f p, Plain (ents v w (es i r f p)) →
      Avg m (ents v w (es i r f p)) (v' i r f p) (w' i r f p) ∧ d.2 i r f p = totSq (ents v w (es i r f p)) := by
  unfold collapseData at h
  dsimp only at h
  cases hn : numeric sqrt m with
  | none => rw [hn] at h; cases h
  | some g =>
    rw [hn] at h
    cases h
    refine ⟨_, _, rfl, ?_⟩
    intro i r f p hp
    have h1 := numeric_avg sqrt m hs g hn _ hp
    simpa only [ents, List.map_map, Function.comp_def] using h1

omit [IsStrictOrderedRing K] in
theorem collapseData_some (sqrt : K → K) (m : Method) (d : Data K) (es : Nat → Nat → Nat → Nat → List (Nat × Nat × Nat × Nat)) :
    collapseData sqrt m d es ≠ none ↔ Numeric m ∨ ((∃ b, d = .flag b) ∧ (m = .or ∨ m = .and)) := by
  unfold collapseData Numeric
  cases d <;> cases m <;> simp [numeric]

theorem joined_join : ∀ (l : List Str), l ≠ [] → Joined l (joinNames l) := by
  intro l
  induction l with
  | nil => exact fun h => absurd rfl h
  | cons a l ih =>
    intro _
    cases l with
    | nil =>
      have : joinNames [a] = a := by simp [joinNames]
      rw [this]
      exact .one a
    | cons b l =>
      have : joinNames (a :: b :: l) = a ++ ',' :: joinNames (b :: l) := by
        simp [joinNames, List.intersperse]
      rw [this]
      exact .more a _ _ (ih (by simp))

/-- After polarizations are collapsed, metric and weight are average and weight of those of all polarizations. -/
theorem pol_metric (sqrt : K → K) (m : Method) (hs : m = .quadmean → IsSqrt sqrt) (o o' : Obj K) (v : Arr (Val K)) (w : Arr K)
    (hd : o.data = .metric v w) (hp : 1 < o.pols.length) (h : collapsePol sqrt m o = (o', none)) :
    (∃ s, o'.pols = [s] ∧ Joined o.pols s) ∧
    (o'.ty = o.ty ∧ o'.times = o.times ∧ o'.lsts = o.lsts ∧ o'.nants = o.nants ∧ o'.nf = o.nf) ∧
    ∃ v' w', o'.data = .metric v' w' ∧ ∀ i r f q, Plain ((List.range o.pols.length).map (fun p => ent v w f p (i, r))) →
      Avg m ((List.range o.pols.length).map (fun p => ent v w f p (i, r))) (v' i r f q) (w' i r f q) := by
  unfold collapsePol at h
  rw [if_pos hp, hd] at h
  split at h
  · cases h
  · rename_i d hcd
    obtain ⟨v', w', h1, h2⟩ := collapseData_metric sqrt m hs v w _ d hcd
    cases (Prod.mk.inj h).1
    refine ⟨⟨_, rfl, joined_join _ (by intro hc; rw [hc] at hp; simp at hp)⟩, ⟨rfl, rfl, rfl, rfl, rfl⟩, v', w', h1, ?_⟩
    intro i r f q hpl
    have h3 := h2 i r f q
    simp only [ents, List.map_map, Function.comp_def] at h3
    exact (h3 hpl).1

omit [IsStrictOrderedRing K] in
/-- Without stored squares of weights, polarizations can be collapsed by the methods for numbers, and flags also by "or"
and "and"; if not, the object is as it was. -/
theorem pol_accepts (sqrt : K → K) (m : Method) (o : Obj K) (hw : o.wsq = none) (hp : 1 < o.pols.length) :
    ((collapsePol sqrt m o).2 = none ↔ Numeric m ∨ ((∃ b, o.data = .flag b) ∧ (m = .or ∨ m = .and))) ∧
    ((collapsePol sqrt m o).2 ≠ none → (collapsePol sqrt m o).1 = o) := by
  rw [← collapseData_some sqrt m o.data (fun i r f _ => (List.range o.pols.length).map (fun p => (i, r, f, p)))]
  unfold collapsePol
  rw [if_pos hp]
  cases hc : collapseData sqrt m o.data (fun i r f _ => (List.range o.pols.length).map (fun p => (i, r, f, p))) with
  | none => simp
  | some d => simp [checkSq, hw]

omit [IsStrictOrderedRing K] in
/-- With stored squares of weights for several polarizations, collapsing always fails, and leaves an object of one
polarization with squares of weights for several. -/
theorem pol_spoils (sqrt : K → K) (m : Method) (o : Obj K) (n : Nat) (q : Arr K) (hw : o.wsq = some (n, q)) (hn : n ≠ 1)
    (hp : 1 < o.pols.length) (hm : Numeric m) : (collapsePol sqrt m o).2 = some .check ∧
    (collapsePol sqrt m o).1.pols.length = 1 ∧ (collapsePol sqrt m o).1.wsq = some (n, q) := by
  have h := (collapseData_some sqrt m o.data (fun i r f _ => (List.range o.pols.length).map (fun p => (i, r, f, p)))).2 (Or.inl hm)
  unfold collapsePol
  rw [if_pos hp]
  cases hc : collapseData sqrt m o.data (fun i r f _ => (List.range o.pols.length).map (fun p => (i, r, f, p))) with
  | none => exact absurd hc h
  | some d => simp [checkSq, hw, hn]

omit [IsStrictOrderedRing K] in
/-- Flags of several polarizations: "or" keeps a flag of any, "and" only those of all. -/
theorem pol_flags (sqrt : K → K) (m : Method) (o o' : Obj K) (b : Arr Bool) (hd : o.data = .flag b)
    (hp : 1 < o.pols.length) (h : collapsePol sqrt m o = (o', none)) (hm : m = .or ∨ m = .and) :
    ∃ b', o'.data = .flag b' ∧ ∀ i r f q, (b' i r f q = true ↔
      if m = .or then ∃ p < o.pols.length, b i r f p = true else ∀ p < o.pols.length, b i r f p = true) := by
  unfold collapsePol at h
  rw [if_pos hp, hd] at h
  rcases hm with rfl | rfl
  · cases (Prod.mk.inj h).1
    refine ⟨_, rfl, ?_⟩
    intro i r f q
    simp
  · cases (Prod.mk.inj h).1
    refine ⟨_, rfl, ?_⟩
    intro i r f q
    simp

/-- Flags that are averaged become metrics, the shares of flags, each with weight one. -/
theorem pol_shares (sqrt : K → K) (m : Method) (hs : m = .quadmean → IsSqrt sqrt) (o o' : Obj K) (b : Arr Bool) (hd : o.data = .flag b)
    (hp : 1 < o.pols.length) (h : collapsePol sqrt m o = (o', none)) (hm : Numeric m) :
    ∃ v', o'.data = .metric v' (fun _ _ _ _ => 1) ∧ ∀ i r f q,
      Avg m ((List.range o.pols.length).map (fun p => (1, num (b i r f p)))) (v' i r f q) o.pols.length := by
  unfold collapsePol at h
  rw [if_pos hp, hd] at h
  have hn : numeric sqrt m ≠ none := (numeric_iff sqrt m).2 hm
  obtain ⟨g, hg⟩ := Option.ne_none_iff_exists'.1 hn
  have hcd : collapseData sqrt m (.flag b) (fun i r f _ => (List.range o.pols.length).map (fun p => (i, r, f, p))) =
      some (.metric (fun i r f p => (g (((List.range o.pols.length).map (fun p => (i, r, f, p))).map (fun e => num (b e.1 e.2.1 e.2.2.1 e.2.2.2)))
          (some (((List.range o.pols.length).map (fun p => (i, r, f, p))).map (fun _ => 1)))).mean) (fun _ _ _ _ => 1), fun _ _ _ _ => 0) := by
    unfold collapseData
    rcases hm with rfl | rfl | rfl <;> dsimp only <;> rw [hg] <;> rfl
  rw [hcd] at h
  cases (Prod.mk.inj h).1
  refine ⟨_, rfl, ?_⟩
  intro i r f q
  have hpl : Plain ((List.range o.pols.length).map (fun p => ((1, num (b i r f p)) : Entry K))) := by
    intro e he
    obtain ⟨p, -, rfl⟩ := List.mem_map.1 he
    exact ⟨by simp [num], zero_le_one⟩
  have hwt : tot ((List.range o.pols.length).map (fun p => ((1, num (b i r f p)) : Entry K))) = o.pols.length := by
    unfold tot
    rw [List.map_map]
    have : (wt ∘ fun p => ((1, num (b i r f p)) : Entry K)) = fun _ => (1 : K) := rfl
    rw [this]
    simp
  obtain ⟨h1, -⟩ := numeric_avg sqrt m hs g hg _ hpl
  have h2 : (g (((List.range o.pols.length).map (fun p => ((1, num (b i r f p)) : Entry K))).map (·.2)) (some
      (((List.range o.pols.length).map (fun p => ((1, num (b i r f p)) : Entry K))).map (·.1)))).weight = o.pols.length := by
    obtain ⟨s, ⟨h3, -, -⟩, -⟩ := h1
    rw [h3, tot_pre, hwt]
  rw [h2] at h1
  simpa only [List.map_map, Function.comp_def] using h1

/-! ### Rows -/

omit [Field K] [IsStrictOrderedRing K] in
theorem unique_nodup (l : List K) : (unique l).Nodup :=
  (unique_sorted l).imp (fun h => ne_of_lt h)

/-- Metrics of a waterfall are averages over all that was observed at the time. -/
theorem rows_metric (sqrt : K → K) (m : Method) (hs : m = .quadmean → IsSqrt sqrt) (sq : Bool) (o o' : Obj K) (v : Arr (Val K)) (w : Arr K)
    (hd : o.data = .metric v w) (hty : o.ty ≠ .waterfall) (hnd : o.ty = .antenna → o.times.Nodup)
    (h : collapseRows sqrt m sq o = (o', none)) :
    (o'.ty = .waterfall ∧ o'.pols = o.pols ∧ o'.nf = o.nf) ∧
    (o'.times.Nodup ∧ ∀ t, t ∈ o'.times ↔ t ∈ o.times) ∧
    ∃ v' w', o'.data = .metric v' w' ∧ ∀ k t f p l, o'.times[k]? = some t → Sources o t l →
      Plain (l.map (ent v w f p)) → Avg m (l.map (ent v w f p)) (v' 0 k f p) (w' 0 k f p) ∧
      (o.ty = .baseline → sq = true → ∃ n q, o'.wsq = some (n, q) ∧ n = o.pols.length ∧
        q 0 k f p = totSq (l.map (ent v w f p))) := by
  unfold collapseRows at h
  cases ht : o.ty with
  | waterfall => exact absurd ht hty
  | antenna =>
    rw [ht, hd] at h
    dsimp only at h
    split at h
    · cases h
    · rename_i d hcd
      obtain ⟨v', w', h1, h2⟩ := collapseData_metric sqrt m hs v w _ d hcd
      cases (Prod.mk.inj h).1
      refine ⟨⟨rfl, rfl, rfl⟩, ⟨hnd ht, fun t => Iff.rfl⟩, v', w', h1, ?_⟩
      intro k t f p l hk hl hpl
      have hperm : l.Perm ((List.range o.nants).map (fun i => (i, k))) := by
        refine (List.perm_ext_iff_of_nodup hl.once ?_).2 ?_
        · exact List.nodup_range.map (fun a b hab => (Prod.mk.inj hab).1)
        · rintro ⟨i, r⟩
          rw [hl.mem, if_pos ht]
          simp only [List.mem_map, List.mem_range, Prod.mk.injEq]
          constructor
          · rintro ⟨h3, h4⟩
            refine ⟨i, h4, rfl, ?_⟩
            obtain ⟨hk1, hk2⟩ := List.getElem?_eq_some_iff.1 hk
            obtain ⟨hr1, hr2⟩ := List.getElem?_eq_some_iff.1 h3
            exact (hnd ht).getElem_inj_iff.1 (hk2.trans hr2.symm)
          · rintro ⟨j, h3, rfl, rfl⟩
            exact ⟨hk, h3⟩
      have he : ents v w ((List.range o.nants).map (fun i => (i, k, f, p))) =
          ((List.range o.nants).map (fun i => (i, k))).map (ent v w f p) := by
        simp only [ents, List.map_map, Function.comp_def, ent]
      have hpm := hperm.map (ent v w f p)
      have h3 := h2 0 k f p (by
        rw [he]
        exact fun e he => hpl e (hpm.mem_iff.2 he))
      rw [he] at h3
      exact ⟨(avg_perm m hpm _ _).2 h3.1, fun hb => by cases hb⟩
  | baseline =>
    rw [ht, hd] at h
    dsimp only at h
    split at h
    · cases h
    · rename_i d hcd
      by_cases hu : sq = true ∧ (m = .or ∨ m = .and) ∧ unique o.times ≠ []
      · rw [if_pos hu] at h; cases h
      rw [if_neg hu] at h
      obtain ⟨v', w', h1, h2⟩ := collapseData_metric sqrt m hs v w _ d hcd
      cases (Prod.mk.inj h).1
      refine ⟨⟨rfl, rfl, rfl⟩, ⟨unique_nodup _, fun t => mem_unique⟩, v', w', h1, ?_⟩
      intro k t f p l hk hl hpl
      dsimp only at hk
      have hperm : l.Perm ((whereIdx (fun x => decide (x = t)) o.times).map (fun r => (0, r))) := by
        refine (List.perm_ext_iff_of_nodup hl.once ?_).2 ?_
        · refine List.Nodup.map (fun a b hab => (Prod.mk.inj hab).2) ?_
          exact (whereIdx_sorted _ _).imp (fun h => ne_of_lt h)
        · rintro ⟨i, r⟩
          rw [hl.mem, if_neg (by rw [ht]; decide)]
          simp only [List.mem_map, mem_whereIdx, Prod.mk.injEq, decide_eq_true_eq]
          constructor
          · rintro ⟨h3, rfl⟩
            exact ⟨r, ⟨t, h3, rfl⟩, rfl, rfl⟩
          · rintro ⟨r', ⟨x, h3, rfl⟩, rfl, rfl⟩
            exact ⟨h3, rfl⟩
      have he : ents v w ((((unique o.times)[k]?).elim [] (fun t => whereIdx (fun x => decide (x = t)) o.times)).map
          (fun r => (0, r, f, p))) = ((whereIdx (fun x => decide (x = t)) o.times).map (fun r => (0, r))).map (ent v w f p) := by
        rw [hk]
        simp only [ents, List.map_map, Function.comp_def, ent, Option.elim]
      have hpm := hperm.map (ent v w f p)
      have h3 := h2 0 k f p (by
        rw [he]
        exact fun e he => hpl e (hpm.mem_iff.2 he))
      rw [he] at h3
      refine ⟨(avg_perm m hpm _ _).2 h3.1, ?_⟩
      intro _ hsq
      refine ⟨_, _, by rw [if_pos hsq], rfl, ?_⟩
      rw [h3.2]
      unfold totSq
      exact ((hpm.map _).sum_eq).symm

/-- Metrics of a waterfall that keeps polarizations. -/
theorem wf_metric (sqrt : K → K) (m : Method) (hs : m = .quadmean → IsSqrt sqrt) (sq : Bool) (o o' : Obj K) (v : Arr (Val K)) (w : Arr K)
    (hd : o.data = .metric v w) (hty : o.ty ≠ .waterfall) (hnd : o.ty = .antenna → o.times.Nodup)
    (h : toWaterfall sqrt m true sq o = (o', none)) :
    (o'.ty = .waterfall ∧ o'.pols = o.pols ∧ o'.nf = o.nf) ∧
    (o'.times.Nodup ∧ ∀ t, t ∈ o'.times ↔ t ∈ o.times) ∧
    ∃ v' w', o'.data = .metric v' w' ∧ ∀ k t f p l, o'.times[k]? = some t → Sources o t l →
      Plain (l.map (ent v w f p)) → Avg m (l.map (ent v w f p)) (v' 0 k f p) (w' 0 k f p) ∧
      (o.ty = .baseline → sq = true → ∃ n q, o'.wsq = some (n, q) ∧ n = o.pols.length ∧
        q 0 k f p = totSq (l.map (ent v w f p))) := by
  refine rows_metric sqrt m hs sq o o' v w hd hty hnd ?_
  unfold toWaterfall at h
  rw [if_neg (fun hc => hty hc.1), if_neg (fun hc => by cases hc.1)] at h
  exact h

theorem filterMap_getElem {A B : Type} (g : A → Option B) : ∀ (l : List A), (∀ a ∈ l, ∃ b, g a = some b) → ∀ (k : Nat),
    (l.filterMap g)[k]? = (l[k]?).bind g := by
  intro l
  induction l with
  | nil => intro _ k; simp
  | cons a l ih =>
    intro h k
    obtain ⟨b, hb⟩ := h a List.mem_cons_self
    rw [List.filterMap_cons_some hb]
    cases k with
    | zero => simp [hb]
    | succ k =>
      rw [List.getElem?_cons_succ, List.getElem?_cons_succ]
      exact ih (fun c hc => h c (List.mem_cons_of_mem _ hc)) k

omit [IsStrictOrderedRing K] in
/-- The sidereal time of a row of the waterfall was that of a row of its time before. -/
theorem wf_lsts (sqrt : K → K) (m : Method) (sq : Bool) (o o' : Obj K) (hl : o.lsts.length = o.times.length)
    (h : collapseRows sqrt m sq o = (o', none)) (k : Nat) (t : K) (hk : o'.times[k]? = some t) :
    ∃ (r : Nat) (x : K), o.times[r]? = some t ∧ o.lsts[r]? = some x ∧ o'.lsts[k]? = some x := by
  have plain : o'.times = o.times → o'.lsts = o.lsts → ∃ (r : Nat) (x : K), o.times[r]? = some t ∧ o.lsts[r]? = some x ∧
      o'.lsts[k]? = some x := by
    intro h1 h2
    rw [h1] at hk
    obtain ⟨hk1, -⟩ := List.getElem?_eq_some_iff.1 hk
    have hk2 : k < o.lsts.length := by omega
    refine ⟨k, o.lsts[k], hk, List.getElem?_eq_getElem hk2, ?_⟩
    rw [h2]
    exact List.getElem?_eq_getElem hk2
  unfold collapseRows at h
  cases ht : o.ty with
  | waterfall =>
    rw [ht] at h
    cases (Prod.mk.inj h).1
    exact plain rfl rfl
  | antenna =>
    rw [ht] at h
    dsimp only at h
    split at h
    · cases h
    · cases (Prod.mk.inj h).1
      exact plain rfl rfl
  | baseline =>
    rw [ht] at h
    dsimp only at h
    split at h
    · cases h
    · by_cases hu : sq = true ∧ (m = .or ∨ m = .and) ∧ unique o.times ≠ []
      · rw [if_pos hu] at h; cases h
      rw [if_neg hu] at h
      cases (Prod.mk.inj h).1
      dsimp only at hk ⊢
      have hidx : ∀ t ∈ o.times, o.times.idxOf t < o.lsts.length := by
        intro t ht
        rw [hl]
        exact List.idxOf_lt_length_iff.2 ht
      have hmem : t ∈ o.times := mem_unique.1 (List.mem_of_getElem? hk)
      refine ⟨o.times.idxOf t, o.lsts[o.times.idxOf t]'(hidx t hmem), ?_, List.getElem?_eq_getElem _, ?_⟩
      · rw [List.getElem?_eq_getElem (List.idxOf_lt_length_iff.2 hmem), List.getElem_idxOf]
      · rw [filterMap_getElem _ _ (fun a ha => ⟨_, List.getElem?_eq_getElem (hidx a (mem_unique.1 ha))⟩), hk]
        exact List.getElem?_eq_getElem _

/-- Metric and weight at all polarizations. -/
def allPols (v : Arr (Val K)) (w : Arr K) (n f : Nat) (s : Nat × Nat) : List (Entry K) :=
  (List.range n).map (fun p => ent v w f p s)

theorem forall2_map {A B : Type} {R : List B → B → Prop} (l : List A) (g : A → List B) (e : A → B)
    (h : ∀ a ∈ l, R (g a) (e a)) : List.Forall₂ R (l.map g) (l.map e) := by
  induction l with
  | nil => exact .nil
  | cons a l ih =>
    exact .cons (h a List.mem_cons_self) (ih (fun b hb => h b (List.mem_cons_of_mem _ hb)))

/-- Metrics of a waterfall that does not keep polarizations are averages over all that was observed at the time, in all
polarizations. -/
theorem wf_all (sqrt : K → K) (m : Method) (hs : m = .quadmean → IsSqrt sqrt) (sq : Bool) (o o' : Obj K) (v : Arr (Val K)) (w : Arr K)
    (hd : o.data = .metric v w) (hty : o.ty ≠ .waterfall) (hnd : o.ty = .antenna → o.times.Nodup)
    (hpol : 1 < o.pols.length) (h : toWaterfall sqrt m false sq o = (o', none)) :
    ∃ v' w', o'.data = .metric v' w' ∧ ∀ k t f l, o'.times[k]? = some t → Sources o t l →
      (∀ s ∈ l, Plain (allPols v w o.pols.length f s) ∧ Clear (allPols v w o.pols.length f s)) →
      Avg m (l.map (allPols v w o.pols.length f)).flatten (v' 0 k f 0) (w' 0 k f 0) := by
  unfold toWaterfall at h
  rw [if_neg (fun hc => hty hc.1), if_pos ⟨rfl, hpol⟩] at h
  cases hc : collapsePol sqrt m o with
  | mk o1 e =>
    rw [hc] at h
    cases e with
    | some e => cases h
    | none =>
      dsimp only at h
      obtain ⟨-, ⟨t1, t2, -, t4, -⟩, v1, w1, hd1, ha1⟩ := pol_metric sqrt m hs o o1 v w hd hpol hc
      obtain ⟨-, -, v', w', hd2, ha2⟩ := rows_metric sqrt m hs sq o1 o' v1 w1 hd1 (by rw [t1]; exact hty)
        (by rw [t1, t2]; exact hnd) h
      refine ⟨v', w', hd2, ?_⟩
      intro k t f l hk hl hpl
      have hl1 : Sources o1 t l := ⟨hl.once, fun i r => by rw [t1, t2, t4]; exact hl.mem i r⟩
      obtain ⟨n1, n2⟩ := avg_nested m (l.map (allPols v w o.pols.length f)) (l.map (ent v1 w1 f 0))
        (forall2_map l _ _ (fun s hs => ha1 s.1 s.2 f 0 (hpl s hs).1)) (by
          intro g hg
          obtain ⟨s, hs, rfl⟩ := List.mem_map.1 hg
          exact hpl s hs)
      exact (n2 _ _).1 (ha2 k t f 0 l hk hl1 n1).1

theorem flatten_swap {A B C : Type} (l : List A) (l' : List B) (g : A → B → C) :
    (l.map (fun a => l'.map (g a))).flatten.Perm (l'.map (fun b => l.map (fun a => g a b))).flatten := by
  induction l with
  | nil =>
    have : (l'.map (fun b => ([] : List A).map (fun a => g a b))).flatten = [] := by
      rw [List.flatten_eq_nil_iff]
      intro x hx
      obtain ⟨b, -, rfl⟩ := List.mem_map.1 hx
      rfl
    rw [this]
    exact List.Perm.refl _
  | cons a l ih =>
    have h2 : ∀ l' : List B, (l'.map (fun b => (a :: l).map (fun a => g a b))).flatten.Perm
        (l'.map (g a) ++ (l'.map (fun b => l.map (fun a => g a b))).flatten) := by
      intro l'
      induction l' with
      | nil => exact List.Perm.refl _
      | cons b l' ih' =>
        simp only [List.map_cons, List.flatten_cons, List.cons_append]
        refine List.Perm.cons _ ?_
        refine (ih'.append_left _).trans ?_
        rw [← List.append_assoc, ← List.append_assoc]
        exact List.perm_append_comm.append_right _
    rw [List.map_cons, List.flatten_cons]
    exact (ih.append_left _).trans (h2 l').symm

/-- Polarizations before rows or rows before polarizations: the same metrics and weights. -/
theorem wf_orders (sqrt : K → K) (m : Method) (hs : m = .quadmean → IsSqrt sqrt) (o x y z : Obj K) (v : Arr (Val K)) (w : Arr K)
    (hd : o.data = .metric v w) (hty : o.ty ≠ .waterfall) (hnd : o.ty = .antenna → o.times.Nodup)
    (hpol : 1 < o.pols.length) (hx : toWaterfall sqrt m false false o = (x, none))
    (hy : toWaterfall sqrt m true false o = (y, none)) (hz : collapsePol sqrt m y = (z, none))
    (k : Nat) (t : K) (hkx : x.times[k]? = some t) (hkz : z.times[k]? = some t) (f : Nat) (l : List (Nat × Nat))
    (hl : Sources o t l)
    (h1 : ∀ s ∈ l, Plain (allPols v w o.pols.length f s) ∧ Clear (allPols v w o.pols.length f s))
    (h2 : ∀ p < o.pols.length, Clear (l.map (ent v w f p))) :
    ∃ e, At x 0 k f 0 e ∧ At z 0 k f 0 e := by
  obtain ⟨vx, wx', hdx, hax⟩ := wf_all sqrt m hs false o x v w hd hty hnd hpol hx
  obtain ⟨⟨-, yp, -⟩, -, vy, wy, hdy, hay⟩ := wf_metric sqrt m hs false o y v w hd hty hnd hy
  obtain ⟨-, ⟨-, zt, -, -, -⟩, vz, wz, hdz, haz⟩ := pol_metric sqrt m hs y z vy wy hdy (by rw [yp]; exact hpol) hz
  have ax := hax k t f l hkx hl h1
  rw [zt] at hkz
  have hplain : ∀ p < o.pols.length, Plain (l.map (ent v w f p)) := by
    intro p hp e he
    obtain ⟨s, hs', rfl⟩ := List.mem_map.1 he
    exact (h1 s hs').1 _ (List.mem_map.2 ⟨p, List.mem_range.2 hp, rfl⟩)
  obtain ⟨n1, n2⟩ := avg_nested m ((List.range o.pols.length).map (fun p => l.map (ent v w f p)))
    ((List.range o.pols.length).map (fun p => ent vy wy f p (0, k)))
    (forall2_map _ _ _ (fun p hp => (hay k t f p l hkz hl (hplain p (List.mem_range.1 hp))).1)) (by
      intro g hg
      obtain ⟨p, hp, rfl⟩ := List.mem_map.1 hg
      exact ⟨hplain p (List.mem_range.1 hp), h2 p (List.mem_range.1 hp)⟩)
  have az := haz 0 k f 0 (by rw [yp]; exact n1)
  rw [yp] at az
  have az' := (n2 _ _).1 az
  have hperm := flatten_swap l (List.range o.pols.length) (fun s p => ent v w f p s)
  obtain ⟨u1, u2⟩ := avg_unique ((avg_perm m hperm _ _).1 ax) az'
  refine ⟨_, ⟨vx, wx', hdx, rfl⟩, ⟨vz, wz, hdz, ?_⟩⟩
  rw [u1, u2]

end Verif.FlagMet
