import Verif.FreqSort.Lemmas
import Mathlib.Algebra.Order.Ring.Rat
import Mathlib.Algebra.Field.Rat

/-! C22: the arrangement returned by `_sort_freq_helper`. -/
namespace Verif.FreqSort
open Verif.Np

variable {K : Type} [Field K] [LinearOrder K]

/-- The index array lists every channel once and the window copy follows it. -/
structure Inv (n : Nat) (ids : List Int) (st : St K) : Prop where
  perm : st.index.Perm (List.range n)
  spws : st.spws.map some = st.index.map (fun i => ids[i]?)

/-- The frequency copy agrees with the index array on window `w`. -/
def FreqsAt (freqs : List K) (ids : List Int) (st : St K) (w : Int) : Prop :=
  (sel (st.spws.map (· == w)) st.freqs).map some = (chans ids w st.index).map (fun i => freqs[i]?)

theorem freqsAt_of_all (freqs : List K) (ids : List Int) (n : Nat) (st : St K) (hi : Inv n ids st)
    (hf : st.freqs.map some = st.index.map (fun i => freqs[i]?)) (w : Int) : FreqsAt freqs ids st w := by
  unfold FreqsAt
  rw [← sel_map, hf, sel_map, sel_filter _ w _ _ hi.spws]
  rfl

theorem sortWindow_spec (sF : Argsort K) (neg : Bool) (freqs : List K) (ids : List Int) (n : Nat) (st : St K) (w : Int)
    (hi : Inv n ids st) (hf : FreqsAt freqs ids st w) :
    Inv n ids (sortWindow sF neg st w) ∧ (sortWindow sF neg st w).spws = st.spws ∧
    (sortWindow sF neg st w).freqs = st.freqs ∧
    (chans ids w (sortWindow sF neg st w).index).Pairwise
      (fun i j => if neg then FreqLe freqs j i else FreqLe freqs i j) ∧
    ∀ w', w' ≠ w → chans ids w' (sortWindow sF neg st w).index = chans ids w' st.index := by
  have hsel := sel_filter (fun i => ids[i]?) w st.spws st.index hi.spws
  set sub := fancy (sel (st.spws.map (· == w)) st.index) (sF.run (sel (st.spws.map (· == w)) st.freqs)) with hsub
  set vs := (if neg then sub.reverse else sub) with hvs
  have hlen : (sel (st.spws.map (· == w)) st.freqs).length = (sel (st.spws.map (· == w)) st.index).length := by
    have := congrArg List.length hf
    rw [List.length_map, List.length_map] at this
    rw [this, hsel]; rfl
  have hsubp : sub.Perm (sel (st.spws.map (· == w)) st.index) := by
    apply fancy_perm
    have := (sF.sorts (sel (st.spws.map (· == w)) st.freqs)).1
    rwa [hlen] at this
  have hvp : vs.Perm (sel (st.spws.map (· == w)) st.index) := by
    rw [hvs]
    split
    · exact (List.reverse_perm _).trans hsubp
    · exact hsubp
  have hmem : ∀ v ∈ vs, ids[v]? = some w := by
    intro v hv
    have := hvp.mem_iff.1 hv
    rw [hsel, List.mem_filter] at this
    simpa using this.2
  obtain ⟨p1, p2, p3⟩ := put_facts (fun i => ids[i]?) w st.spws st.index vs hi.spws hvp.length_eq hmem
  have hidx : (sortWindow sF neg st w).index = put (st.spws.map (· == w)) st.index vs := rfl
  refine ⟨⟨?_, ?_⟩, rfl, rfl, ?_, ?_⟩
  · rw [hidx]
    exact (put_perm _ _ _ hvp).trans hi.perm
  · rw [hidx, p1]; rfl
  · unfold chans
    rw [hidx, p2]
    have hs : sub.Pairwise (FreqLe freqs) :=
      fancy_sorted _ _ (fun i => freqs[i]?) (by rw [hsel]; exact hf) _ (sF.sorts _)
    rw [hvs]
    cases neg with
    | false => simpa using hs
    | true => simpa [List.pairwise_reverse] using hs
  · intro w' hw'
    unfold chans
    rw [hidx, p3 w' hw']

theorem sortWindows_spec (sF : Argsort K) (neg : Bool) (sortSpw : Int → Bool) (freqs : List K) (ids : List Int) (n : Nat) :
    ∀ (ws : List Int), ws.Nodup → ∀ (st : St K), Inv n ids st → (∀ w ∈ ws, FreqsAt freqs ids st w) →
    Inv n ids (sortWindows sF neg sortSpw ws st) ∧ (sortWindows sF neg sortSpw ws st).spws = st.spws ∧
    (∀ w ∈ ws, sortSpw w = true → (chans ids w (sortWindows sF neg sortSpw ws st).index).Pairwise
      (fun i j => if neg then FreqLe freqs j i else FreqLe freqs i j)) ∧
    (∀ w, (w ∉ ws ∨ sortSpw w = false) → chans ids w (sortWindows sF neg sortSpw ws st).index = chans ids w st.index) := by
  intro ws
  induction ws with
  | nil => intro _ st hi _; exact ⟨hi, rfl, by simp, fun _ _ => rfl⟩
  | cons v ws ih =>
    intro hnd st hi hf
    rw [List.nodup_cons] at hnd
    have step : sortWindows sF neg sortSpw (v :: ws) st =
        sortWindows sF neg sortSpw ws (if sortSpw v then sortWindow sF neg st v else st) := rfl
    rw [step]
    by_cases hv : sortSpw v = true
    · rw [if_pos hv]
      obtain ⟨s1, s2, s3, s4, s5⟩ := sortWindow_spec sF neg freqs ids n st v hi (hf v (by simp))
      have hf' : ∀ w ∈ ws, FreqsAt freqs ids (sortWindow sF neg st v) w := by
        intro w hw
        have hne : w ≠ v := fun h => hnd.1 (h ▸ hw)
        unfold FreqsAt
        rw [s2, s3, s5 w hne]
        exact hf w (by simp [hw])
      obtain ⟨i1, i2, i3, i4⟩ := ih hnd.2 _ s1 hf'
      refine ⟨i1, i2.trans s2, ?_, ?_⟩
      · intro w hw hsw
        rcases List.mem_cons.1 hw with rfl | hw
        · rw [i4 w (Or.inl hnd.1)]
          exact s4
        · exact i3 w hw hsw
      · intro w hw
        have hne : w ≠ v := by
          rintro rfl
          rcases hw with hw | hw
          · exact hw (by simp)
          · rw [hv] at hw; simp at hw
        rw [i4 w (hw.imp (fun h h' => h (by simp [h'])) id), s5 w hne]
    · rw [if_neg hv]
      obtain ⟨i1, i2, i3, i4⟩ := ih hnd.2 st hi (fun w hw => hf w (by simp [hw]))
      refine ⟨i1, i2, ?_, ?_⟩
      · intro w hw hsw
        rcases List.mem_cons.1 hw with rfl | hw
        · exact absurd hsw hv
        · exact i3 w hw hsw
      · intro w hw
        exact i4 w (hw.imp (fun h h' => h (by simp [h'])) id)

theorem start_inv (freqs : List K) (spws ids : List Int) (hv : Valid freqs spws ids) :
    Inv freqs.length ids (start freqs ids) ∧ ∀ w, FreqsAt freqs ids (start freqs ids) w := by
  have h1 : ∀ {α : Type} (xs : List α), xs.map some = (List.range xs.length).map (fun i => xs[i]?) := by
    intro α xs
    have := fancy_map xs (List.range xs.length) (fun i hi => List.mem_range.1 hi)
    rwa [fancy_range] at this
  have hi : Inv freqs.length ids (start freqs ids) := by
    refine ⟨List.Perm.refl _, ?_⟩
    change ids.map some = (List.range freqs.length).map _
    rw [← hv.len]
    exact h1 ids
  exact ⟨hi, fun w => freqsAt_of_all freqs ids _ _ hi (h1 freqs) w⟩

theorem sel_windowFreqs (freqs : List K) (ids : List Int) (w : Int) :
    sel (ids.map (· == w)) freqs = windowFreqs freqs ids w := by
  induction ids generalizing freqs with
  | nil => rfl
  | cons v ids ih =>
    rcases freqs with _ | ⟨f, freqs⟩
    · cases h : (v == w) <;> simp [windowFreqs, sel, h]
    · have := ih freqs
      unfold windowFreqs at this ⊢
      cases h : (v == w) <;> simp [sel, h, this]

theorem median_unique (l : List K) (m m' : K) (h : IsMedian l m) (h' : IsMedian l m') : m = m' := by
  obtain ⟨s, s1, s2, a, b, s3, s4, s5⟩ := h
  obtain ⟨t, t1, t2, c, d, t3, t4, t5⟩ := h'
  have : s = t := List.Perm.eq_of_pairwise (le := (· ≤ ·)) (fun a b _ _ h1 h2 => le_antisymm h1 h2) s2 t2
    (s1.trans t1.symm)
  subst this
  rw [s3] at t3
  rw [s4] at t4
  simp only [Option.some.injEq] at t3 t4
  rw [s5, t5, t3, t4]

/-- The computed median is the median. -/
theorem median_spec (l : List K) (h : l ≠ []) : IsMedian l (median l) := by
  have hl : 0 < l.length := List.length_pos_iff.2 h
  have hlen : (l.insertionSort (· ≤ ·)).length = l.length := List.length_insertionSort _ _
  have h1 : (l.length - 1) / 2 < (l.insertionSort (· ≤ ·)).length := by rw [hlen]; omega
  have h2 : l.length / 2 < (l.insertionSort (· ≤ ·)).length := by rw [hlen]; omega
  refine ⟨l.insertionSort (· ≤ ·), List.perm_insertionSort _ l, List.pairwise_insertionSort _ l, _, _,
    List.getElem?_eq_getElem h1, List.getElem?_eq_getElem h2, ?_⟩
  unfold median
  simp only [List.getD_eq_getElem?_getD, List.getElem?_eq_getElem h1, List.getElem?_eq_getElem h2, Option.getD_some]

theorem windowFreqs_ne_nil (freqs : List K) (spws ids : List Int) (hv : Valid freqs spws ids) (w : Int) (hw : w ∈ spws) :
    windowFreqs freqs ids w ≠ [] := by
  obtain ⟨i, hi, he⟩ := List.mem_iff_getElem.1 (hv.used w hw)
  have hi' : i < freqs.length := hv.len ▸ hi
  intro h
  have hm : freqs[i] ∈ windowFreqs freqs ids w := by
    refine List.mem_map.2 ⟨(ids[i], freqs[i]), List.mem_filter.2 ⟨?_, by simp [he]⟩, rfl⟩
    exact List.mem_iff_getElem.2 ⟨i, by simp [hi, hi'], by simp⟩
  rw [h] at hm
  exact List.not_mem_nil hm

theorem pairwise_fancy_values {β : Type} [LinearOrder β] (keys : Int → β) (spws : List Int) (idx : List Nat)
    (h : IsArgsort (spws.map keys) idx) : (fancy spws idx).Pairwise (fun v w => keys v ≤ keys w) := by
  have := fancy_sorted (spws.map keys) spws (fun v => some (keys v)) (by simp) idx h
  exact this.imp (fun h => h _ _ rfl rfl)

theorem fancy_reverse {α : Type} (xs : List α) (idx : List Nat) : fancy xs idx.reverse = (fancy xs idx).reverse := by
  simp [fancy, List.filterMap_reverse]

/-- The window order computed from the keyword is the one asked for. -/
theorem spwOrder_requested (sI : Argsort Int) (sF : Argsort K) (freqs : List K) (spws ids : List Int) (so : Order)
    (ord : List Nat) (hv : Valid freqs spws ids) (h : spwOrder sI sF freqs spws ids so = .ok ord) :
    Requested freqs spws ids so (fancy spws ord) := by
  cases so with
  | none =>
    simp only [spwOrder, Except.ok.injEq] at h
    subst h
    rw [fancy_range]
    exact ⟨List.Perm.refl _, by simp, by simp, by simp, by simp, by simp⟩
  | idx l =>
    simp only [spwOrder] at h
    split at h
    · rename_i hp
      simp only [Except.ok.injEq] at h
      subst h
      obtain ⟨q, -⟩ := isIndexPerm_spec hp
      refine ⟨fancy_perm _ _ q, ?_, by simp, by simp, by simp, by simp⟩
      intro l' hl'
      simp only [Order.idx.injEq] at hl'
      subst hl'
      rw [fancy_map _ _ (perm_lt q), List.map_map]
      rfl
    · simp at h
  | str s =>
    simp only [spwOrder, strOrder] at h
    by_cases hs : s ∉ ["number".toList, "freq".toList, "-number".toList, "-freq".toList]
    · rw [if_pos hs] at h; simp at h
    rw [if_neg hs] at h
    by_cases hn : 1 < spws.length
    · rw [if_pos hn] at h
      have hnum := sI.sorts spws
      have hfrq := sF.sorts (spws.map (fun w => median (sel (ids.map (· == w)) freqs)))
      have n1 : (fancy spws (sI.run spws)).Perm spws := fancy_perm _ _ hnum.1
      have n2 : (fancy spws (sI.run spws)).Pairwise (· < ·) := by
        have := pairwise_fancy_values id spws (sI.run spws) (by simpa using hnum)
        have nd : (fancy spws (sI.run spws)).Pairwise (· ≠ ·) := n1.nodup_iff.2 hv.nodup
        exact (this.and nd).imp (fun h => lt_of_le_of_ne h.1 h.2)
      have f1 : (fancy spws (sF.run (spws.map (fun w => median (sel (ids.map (· == w)) freqs))))).Perm spws :=
        fancy_perm _ _ (by simpa using hfrq.1)
      have f2 : (fancy spws (sF.run (spws.map (fun w => median (sel (ids.map (· == w)) freqs))))).Pairwise
          (MedianLe freqs ids) := by
        have := pairwise_fancy_values (fun w => median (sel (ids.map (· == w)) freqs)) spws _ hfrq
        refine List.Pairwise.imp_of_mem ?_ this
        intro v w hvm hwm hle a b ha hb
        rw [sel_windowFreqs, sel_windowFreqs] at hle
        rw [median_unique _ _ _ ha (median_spec _ (windowFreqs_ne_nil _ _ _ hv v (f1.mem_iff.1 hvm))),
          median_unique _ _ _ hb (median_spec _ (windowFreqs_ne_nil _ _ _ hv w (f1.mem_iff.1 hwm)))]
        exact hle
      simp only [List.mem_cons, List.not_mem_nil, or_false, not_not] at hs
      rcases hs with rfl | rfl | rfl | rfl
      · have : ord = sI.run spws := by
          rw [if_neg (by decide), if_pos (by decide)] at h
          simpa using h.symm
        subst this
        exact ⟨n1, by simp, fun _ => n2, (fun h => absurd h (by decide)), (fun h => absurd h (by decide)), (fun h => absurd h (by decide))⟩
      · have : ord = sF.run (spws.map (fun w => median (sel (ids.map (· == w)) freqs))) := by
          rw [if_neg (by decide), if_neg (by decide)] at h
          simpa using h.symm
        subst this
        exact ⟨f1, by simp, (fun h => absurd h (by decide)), (fun h => absurd h (by decide)), fun _ => f2, (fun h => absurd h (by decide))⟩
      · have : ord = (sI.run spws).reverse := by
          rw [if_pos (by decide), if_pos (by decide)] at h
          simpa using h.symm
        subst this
        rw [fancy_reverse]
        exact ⟨(List.reverse_perm _).trans n1, by simp, (fun h => absurd h (by decide)), fun _ => List.pairwise_reverse.2 n2, (fun h => absurd h (by decide)), (fun h => absurd h (by decide))⟩
      · have : ord = (sF.run (spws.map (fun w => median (sel (ids.map (· == w)) freqs)))).reverse := by
          rw [if_pos (by decide), if_neg (by decide)] at h
          simpa using h.symm
        subst this
        rw [fancy_reverse]
        exact ⟨(List.reverse_perm _).trans f1, by simp, (fun h => absurd h (by decide)), (fun h => absurd h (by decide)), (fun h => absurd h (by decide)), fun _ => List.pairwise_reverse.2 f2⟩
    · rw [if_neg hn] at h
      simp only [Except.ok.injEq] at h
      subst h
      rw [fancy_range]
      obtain ⟨v, hvs⟩ : ∃ v, spws = [v] := by
        rcases spws with _ | ⟨v, _ | ⟨w, l⟩⟩
        · exact absurd rfl hv.nonempty
        · exact ⟨v, rfl⟩
        · simp at hn
      rw [hvs]
      exact ⟨List.Perm.refl _, by simp, by simp, by simp, by simp, by simp⟩

theorem chans_range_mem {ids : List Int} {w : Int} {n i : Nat} :
    i ∈ chans ids w (List.range n) ↔ i < n ∧ ids[i]? = some w := by simp [chans]

/-- Channels grouped by window: a permutation, windows in the given order, channels of each window in place order. -/
theorem groupBy_spec (freqs : List K) (spws ids : List Int) (hv : Valid freqs spws ids) (ord : List Int)
    (hp : ord.Perm spws) :
    groupBy freqs.length ids ord = ord.flatMap (fun w => chans ids w (List.range freqs.length)) ∧
    (groupBy freqs.length ids ord).Perm (List.range freqs.length) ∧
    ∀ w ∈ spws, chans ids w (groupBy freqs.length ids ord) = chans ids w (List.range freqs.length) := by
  have h1 : groupBy freqs.length ids ord = ord.flatMap (fun w => chans ids w (List.range freqs.length)) := by
    unfold groupBy
    congr 1
    funext w
    exact sel_filter (fun i => ids[i]?) w ids _ (start_inv freqs spws ids hv).1.spws
  have nd : ord.Nodup := hp.nodup_iff.2 hv.nodup
  refine ⟨h1, ?_, ?_⟩
  · rw [h1, List.perm_ext_iff_of_nodup]
    · intro i
      rw [List.mem_flatMap, List.mem_range]
      constructor
      · rintro ⟨w, _, hi⟩
        exact (chans_range_mem.1 hi).1
      · intro hi
        have hi' : i < ids.length := hv.len ▸ hi
        exact ⟨ids[i], hp.mem_iff.2 (hv.listed _ (List.getElem_mem hi')), chans_range_mem.2 ⟨hi, by simp [hi']⟩⟩
    · rw [List.nodup_flatMap]
      refine ⟨fun w _ => List.Nodup.filter _ List.nodup_range, ?_⟩
      refine nd.imp ?_
      intro v w hvw
      simp only [Function.onFun]
      intro i hi hj
      have a := (chans_range_mem.1 hi).2
      have b := (chans_range_mem.1 hj).2
      rw [a] at b
      exact hvw (by simpa using b)
    · exact List.nodup_range
  · intro w hw
    rw [h1]
    have hw' : w ∈ ord := hp.mem_iff.2 hw
    clear h1 hp
    unfold chans
    induction ord with
    | nil => simp at hw'
    | cons v ord ih =>
      rw [List.nodup_cons] at nd
      rw [List.flatMap_cons, List.filter_append, List.filter_filter]
      by_cases hvw : w = v
      · subst hvw
        have e2 : (ord.flatMap (fun w => (List.range freqs.length).filter (fun i => ids[i]? == some w))).filter
            (fun i => ids[i]? == some w) = [] := by
          rw [List.filter_eq_nil_iff]
          intro i hi
          obtain ⟨u, hu, hi⟩ := List.mem_flatMap.1 hi
          have := (List.mem_filter.1 hi).2
          simp only [beq_iff_eq] at this ⊢
          rw [this]
          intro h
          simp only [Option.some.injEq] at h
          exact nd.1 (h ▸ hu)
        rw [e2, List.append_nil]
        apply List.filter_congr
        intro i _
        simp
      · have e1 : (List.range freqs.length).filter (fun i => (ids[i]? == some w) && (ids[i]? == some v)) = [] := by
          rw [List.filter_eq_nil_iff]
          intro i _ h
          simp only [Bool.and_eq_true, beq_iff_eq] at h
          rw [h.1] at h
          exact hvw (by simpa using h.2)
        rw [e1, List.nil_append]
        exact ih nd.2 (by
          rcases List.mem_cons.1 hw' with h | h
          · exact absurd h hvw
          · exact h)

theorem spwStage_spec (sI : Argsort Int) (sF : Argsort K) (freqs : List K) (spws ids : List Int) (so : Order)
    (st : St K) (hv : Valid freqs spws ids) (h : spwStage sI sF freqs spws ids so = .ok st) :
    Inv freqs.length ids st ∧ (∀ w, FreqsAt freqs ids st w) ∧
    (∃ ord, Requested freqs spws ids so ord ∧ st.index = ord.flatMap (fun w => chans ids w (List.range freqs.length))) ∧
    ∀ w ∈ spws, chans ids w st.index = chans ids w (List.range freqs.length) := by
  unfold spwStage at h
  cases ho : spwOrder sI sF freqs spws ids so with
  | error e => rw [ho] at h; simp at h
  | ok ord =>
    rw [ho] at h
    simp only at h
    split at h
    · simp at h
    · simp only [Except.ok.injEq] at h
      have hr := spwOrder_requested sI sF freqs spws ids so ord hv ho
      obtain ⟨g1, g2, g3⟩ := groupBy_spec freqs spws ids hv _ hr.1
      subst h
      have hi : Inv freqs.length ids (⟨groupBy freqs.length ids (fancy spws ord),
          fancy freqs (groupBy freqs.length ids (fancy spws ord)),
          fancy ids (groupBy freqs.length ids (fancy spws ord))⟩ : St K) :=
        ⟨g2, fancy_map _ _ (by rw [hv.len]; exact perm_lt g2)⟩
      exact ⟨hi, freqsAt_of_all freqs ids _ _ hi (fancy_map _ _ (perm_lt g2)), ⟨_, hr, g1⟩, g3⟩

theorem channelStage_spec (sF : Argsort K) (freqs : List K) (spws ids : List Int) (sortSpw : Int → Bool) (co : Order)
    (st : St K) (r : Option (List Nat)) (hnd : spws.Nodup) (hi : Inv freqs.length ids st)
    (hf : ∀ w, FreqsAt freqs ids st w) (h : channelStage sF spws sortSpw co st = .ok r) :
    (arrangement freqs.length r).Perm (List.range freqs.length) ∧
    (arrangement freqs.length r).map (fun i => ids[i]?) = st.index.map (fun i => ids[i]?) ∧
    (∀ w ∈ spws, sortSpw w = true → ChannelsSorted freqs co (chans ids w (arrangement freqs.length r))) ∧
    (∀ w ∈ spws, (sortSpw w = false ∨ co = .none) →
      chans ids w (arrangement freqs.length r) = chans ids w st.index) := by
  cases co with
  | none =>
    simp only [channelStage, Except.ok.injEq] at h
    subst h
    rw [finish_arrangement hi.perm]
    exact ⟨hi.perm, rfl, fun w _ _ => ⟨by simp, by simp⟩, fun _ _ _ => rfl⟩
  | idx l => simp [channelStage] at h
  | str s =>
    simp only [channelStage] at h
    by_cases hs : s ∉ ["freq".toList, "-freq".toList]
    · rw [if_pos hs] at h; simp at h
    rw [if_neg hs] at h
    simp only [Except.ok.injEq] at h
    subst h
    obtain ⟨i1, i2, i3, i4⟩ := sortWindows_spec sF (decide (s.head? = some '-')) sortSpw freqs ids freqs.length spws hnd
      st hi (fun w _ => hf w)
    rw [finish_arrangement i1.perm]
    refine ⟨i1.perm, ?_, ?_, ?_⟩
    · rw [← i1.spws, i2, hi.spws]
    · intro w hw hsw
      have := i3 w hw hsw
      simp only [List.mem_cons, List.not_mem_nil, or_false, not_not] at hs
      rcases hs with rfl | rfl
      · exact ⟨fun _ => this.imp (by intro a b h; simpa using h), (fun h => absurd h (by decide))⟩
      · exact ⟨(fun h => absurd h (by decide)), fun _ => this.imp (by intro a b h; simpa using h)⟩
    · intro w hw hsw
      rcases hsw with hsw | hsw
      · exact i4 w (Or.inr hsw)
      · simp at hsw

/-- C22, index array: the arrangement is the array that was given. -/
theorem sort_freq_index (sI : Argsort Int) (sF : Argsort K) (freqs : List K) (spws ids : List Int) (so : Order)
    (l : List Int) (ss : Option (List Int)) (r : Option (List Nat))
    (h : sortFreq sI sF freqs spws ids so (.idx l) ss = .ok r) :
    (arrangement freqs.length r).map (fun i : Nat => (i : Int)) = l ∧
      (arrangement freqs.length r).Perm (List.range freqs.length) := by
  unfold sortFreq at h
  rw [if_neg (by simp)] at h
  simp only at h
  split at h
  · rename_i hp
    simp only [Except.ok.injEq] at h
    subst h
    obtain ⟨q, hq⟩ := isIndexPerm_spec hp
    rw [finish_arrangement q]
    refine ⟨?_, q⟩
    rw [List.map_map]
    conv_rhs => rw [← List.map_id l]
    apply List.map_congr_left
    intro i hi
    simp [hq i hi]
  · simp at h

/-- C22, window order requested: windows come out as blocks in the requested order, and within each window the
channels are in the requested order, or in their old order if none was requested. -/
theorem sort_freq_windows (sI : Argsort Int) (sF : Argsort K) (freqs : List K) (spws ids : List Int) (so co : Order)
    (r : Option (List Nat)) (hv : Valid freqs spws ids) (hso : so ≠ .none) (hco : ∀ l, co ≠ .idx l)
    (h : sortFreq sI sF freqs spws ids so co none = .ok r) :
    (arrangement freqs.length r).Perm (List.range freqs.length) ∧
    (∃ ord, Requested freqs spws ids so ord ∧
      (arrangement freqs.length r).map (fun i => ids[i]?) =
        ord.flatMap (fun w => List.replicate (ids.count w) (some w))) ∧
    (∀ w ∈ spws, ChannelsSorted freqs co (chans ids w (arrangement freqs.length r))) ∧
    (co = .none → ∀ w ∈ spws, (chans ids w (arrangement freqs.length r)).Pairwise (· < ·)) := by
  unfold sortFreq at h
  rw [if_neg (by simp [hso])] at h
  have h' : (spwStage sI sF freqs spws ids so >>= channelStage sF spws (fun _ => co ≠ .none) co) = Except.ok r := by
    cases co with
    | idx l => exact absurd rfl (hco l)
    | none => simpa [hso] using h
    | str s => simpa [hso] using h
  cases hst : spwStage sI sF freqs spws ids so with
  | error e => rw [hst] at h'; simp [bind, Except.bind] at h'
  | ok st =>
    rw [hst] at h'
    simp only [bind, Except.bind] at h'
    obtain ⟨s1, s2, ⟨ord, s3, s4⟩, s5⟩ := spwStage_spec sI sF freqs spws ids so st hv hst
    obtain ⟨c1, c2, c3, c4⟩ := channelStage_spec sF freqs spws ids _ co st r hv.nodup s1 s2 h'
    refine ⟨c1, ⟨ord, s3, ?_⟩, ?_, ?_⟩
    · rw [c2, s4, List.map_flatMap]
      congr 1
      funext w
      rw [List.eq_replicate_iff]
      constructor
      · rw [List.length_map]
        unfold chans
        have e : ids = (List.range freqs.length).filterMap (fun i => ids[i]?) := by
          rw [← hv.len]; exact (fancy_range ids).symm
        conv_rhs => rw [e]
        rw [List.count_filterMap, List.countP_eq_length_filter]
      · intro x hx
        obtain ⟨i, hi, rfl⟩ := List.mem_map.1 hx
        exact (chans_range_mem.1 hi).2
    · intro w hw
      by_cases hc : co = .none
      · subst hc; exact ⟨by simp, by simp⟩
      · exact c3 w hw (by simpa using hc)
    · intro hc w hw
      rw [c4 w hw (Or.inr hc), s5 w hw]
      exact List.Pairwise.filter _ List.pairwise_lt_range

/-- C22, only a channel order requested, for all or for selected windows: every window keeps its positions, the
selected windows are sorted, the others are left alone. -/
theorem sort_freq_channels (sI : Argsort Int) (sF : Argsort K) (freqs : List K) (spws ids : List Int) (so co : Order)
    (ss : Option (List Int)) (r : Option (List Nat)) (hv : Valid freqs spws ids) (hco : ∀ l, co ≠ .idx l)
    (hn : co ≠ .none) (hso : so = .none ∨ ss ≠ none) (h : sortFreq sI sF freqs spws ids so co ss = .ok r) :
    (arrangement freqs.length r).Perm (List.range freqs.length) ∧
    (arrangement freqs.length r).map (fun i => ids[i]?) = ids.map some ∧
    (∀ w ∈ spws, (∀ ws, ss = some ws → w ∈ ws) → ChannelsSorted freqs co (chans ids w (arrangement freqs.length r))) ∧
    (∀ w ∈ spws, (∃ ws, ss = some ws ∧ w ∉ ws) →
      chans ids w (arrangement freqs.length r) = chans ids w (List.range freqs.length)) := by
  unfold sortFreq at h
  rw [if_neg (by simp [hn])] at h
  obtain ⟨i1, i2⟩ := start_inv freqs spws ids hv
  have hids : ids.map some = (start freqs ids).index.map (fun i => ids[i]?) := i1.spws
  have h' : channelStage sF spws
      (match ss with | some ws => (fun w => ws.contains w) | none => (fun _ => decide (co ≠ .none))) co (start freqs ids) = .ok r := by
    cases co with
    | idx l => exact absurd rfl (hco l)
    | none => exact absurd rfl hn
    | str s =>
      cases ss with
      | some ws => simpa using h
      | none =>
        rcases hso with hso | hso
        · simpa [hso] using h
        · exact absurd rfl hso
  obtain ⟨c1, c2, c3, c4⟩ := channelStage_spec sF freqs spws ids _ co _ r hv.nodup i1 i2 h'
  refine ⟨c1, c2.trans hids.symm, ?_, ?_⟩
  · intro w hw hall
    apply c3 w hw
    cases ss with
    | none => simpa using hn
    | some ws => simpa using hall ws rfl
  · rintro w hw ⟨ws, rfl, hnot⟩
    exact c4 w hw (Or.inl (by simpa using hnot))

/-- Nothing requested, or windows selected without a channel order: nothing moves. -/
theorem sort_freq_noop (sI : Argsort Int) (sF : Argsort K) (freqs : List K) (spws ids : List Int) (so : Order)
    (ss : Option (List Int)) (h : so = .none ∨ ss ≠ none) : sortFreq sI sF freqs spws ids so .none ss = .ok none := by
  unfold sortFreq
  by_cases hs : so = .none
  · rw [if_pos ⟨hs, rfl⟩]
  · rw [if_neg (by simp [hs])]
    cases ss with
    | none => simp [hs] at h
    | some ws => simp

/-- `None` is returned only when nothing moves, and always when nothing moves. -/
theorem sort_freq_none (sI : Argsort Int) (sF : Argsort K) (freqs : List K) (spws ids : List Int) (so co : Order)
    (ss : Option (List Int)) (idx : List Nat) (hv : Valid freqs spws ids)
    (h : sortFreq sI sF freqs spws ids so co ss = .ok (some idx)) :
    idx.Perm (List.range freqs.length) ∧ idx ≠ List.range freqs.length := by
  have fin : ∀ {l : List Nat}, finish l = some idx → l = idx ∧ ¬ idx.IsChain (· < ·) := by
    intro l hl
    unfold finish at hl
    split at hl
    · simp at hl
    · simp only [Option.some.injEq] at hl
      subst hl
      exact ⟨rfl, by assumption⟩
  have hperm : idx.Perm (List.range freqs.length) := by
    cases co with
    | idx l => exact (sort_freq_index sI sF freqs spws ids so l ss _ h).2
    | none =>
      by_cases hs : so = .none ∨ ss ≠ none
      · rw [sort_freq_noop sI sF freqs spws ids so ss hs] at h; simp at h
      · simp only [ne_eq, not_or, not_not] at hs
        obtain ⟨hs, rfl⟩ := hs
        exact (sort_freq_windows sI sF freqs spws ids so .none _ hv hs (by simp) h).1
    | str s =>
      by_cases hs : so = .none ∨ ss ≠ none
      · exact (sort_freq_channels sI sF freqs spws ids so (.str s) ss _ hv (by simp) (by simp) hs h).1
      · simp only [ne_eq, not_or, not_not] at hs
        obtain ⟨hs, rfl⟩ := hs
        exact (sort_freq_windows sI sF freqs spws ids so (.str s) _ hv hs (by simp) h).1
  refine ⟨hperm, ?_⟩
  rintro rfl
  have hch : (List.range freqs.length).IsChain (· < ·) := (chain_range (List.Perm.refl _)).2 rfl
  have hstage : ∀ (f : Int → Bool) (st : St K), channelStage sF spws f co st ≠ .ok (some (List.range freqs.length)) := by
    intro f st hc
    cases co with
    | idx l => simp [channelStage] at hc
    | none =>
      simp only [channelStage, Except.ok.injEq] at hc
      exact (fin hc).2 hch
    | str s =>
      simp only [channelStage] at hc
      split at hc
      · simp at hc
      · simp only [Except.ok.injEq] at hc
        exact (fin hc).2 hch
  unfold sortFreq at h
  split at h
  · simp at h
  split at h
  · split at h
    · simp only [Except.ok.injEq] at h
      exact (fin h).2 hch
    · simp at h
  · split at h
    · split at h
      · simp at h
      · exact hstage _ _ h
    · split at h
      · exact hstage _ _ h
      · cases hst : spwStage sI sF freqs spws ids so with
        | error e => rw [hst] at h; simp [bind, Except.bind] at h
        | ok st =>
          rw [hst] at h
          exact hstage _ _ h

/-- The index-array checks accept exactly the arrangements of all positions. -/
theorem sort_freq_index_ok (sI : Argsort Int) (sF : Argsort K) (freqs : List K) (spws ids : List Int) (so : Order)
    (l : List Int) (ss : Option (List Int)) :
    (∃ r, sortFreq sI sF freqs spws ids so (.idx l) ss = .ok r) ↔
      l.Perm ((List.range freqs.length).map (fun i : Nat => (i : Int))) := by
  rw [← isIndexPerm_iff]
  unfold sortFreq
  rw [if_neg (by simp)]
  simp only
  by_cases h : isIndexPerm l freqs.length = true
  · simp [h]
  · simp [h]

end Verif.FreqSort
