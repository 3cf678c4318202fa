import Verif.FlexPol.Combine

/-! The checks of `remove_flex_pol`: what they establish. -/
namespace Verif.FlexPol
open Verif.Np Verif.FreqSort

set_option linter.unusedSectionVars false

variable {K V : Type} [LinearOrder K]

/-! ### Changes between neighbours -/

theorem steps_concat : ∀ (l : List Int) (b a : Int), steps (l ++ [b] ++ [a]) = steps (l ++ [b]) + if b = a then 0 else 1 := by
  intro l
  induction l with
  | nil => intro b a; simp [steps]
  | cons x l ih =>
    intro b a
    cases l with
    | nil => simp [steps]
    | cons y l =>
      have := ih b a
      simp only [List.cons_append, steps] at this ⊢
      rw [this]; omega

/-- Every value needs a change; with no more changes than that, equal values stand together. -/
theorem steps_firsts : ∀ l : List Int, l ≠ [] → (firsts l).length ≤ steps l + 1 ∧
    ((firsts l).length = steps l + 1 → l = (firsts l).flatMap (fun q => List.replicate (l.count q) q) ∧ (firsts l).getLast? = l.getLast?) := by
  intro l
  induction l using List.reverseRecOn with
  | nil => intro h; exact absurd rfl h
  | append_singleton l a ih =>
    intro _
    rcases List.eq_nil_or_concat l with rfl | ⟨l', b, rfl⟩
    · simp [firsts, steps]
    · rw [List.concat_eq_append] at ih ⊢
      obtain ⟨ih1, ih2⟩ := ih (by simp)
      rw [steps_concat, firsts_concat]
      generalize hl : l' ++ [b] = l at ih1 ih2 ⊢
      have hb : l.getLast? = some b := by rw [← hl]; simp
      have hbl : b ∈ l := by rw [← hl]; simp
      by_cases ha : a ∈ l
      · rw [if_pos ha]
        by_cases hab : b = a
        · rw [if_pos hab]
          refine ⟨by omega, fun he => ?_⟩
          obtain ⟨h1, h2⟩ := ih2 (by omega)
          subst hab
          rw [hb] at h2
          refine ⟨?_, by simp [h2]⟩
          obtain ⟨F, hF⟩ : ∃ F, firsts l = F ++ [b] := by
            rcases List.eq_nil_or_concat (firsts l) with h0 | ⟨F, c, hF⟩
            · rw [h0] at h2; simp at h2
            · rw [hF] at h2; simp at h2; exact ⟨F, by rw [hF, h2, List.concat_eq_append]⟩
          have hnd := firsts_nodup l
          rw [hF] at hnd h1 ⊢
          rw [List.nodup_append] at hnd
          have hbF : b ∉ F := fun h => hnd.2.2 b h b (by simp) rfl
          rw [List.flatMap_append] at h1 ⊢
          have e : F.flatMap (fun q => List.replicate ((l ++ [b]).count q) q) = F.flatMap (fun q => List.replicate (l.count q) q) := by
            apply List.flatMap_congr
            intro q hq
            have : b ≠ q := by rintro rfl; exact hbF hq
            rw [List.count_append, List.count_singleton]; simp [this]
          rw [e]
          simp only [List.flatMap_cons, List.flatMap_nil, List.append_nil] at h1 ⊢
          rw [List.count_append, List.count_singleton_self, List.replicate_succ', ← List.append_assoc, ← h1]
        · rw [if_neg hab]
          exact ⟨by omega, fun he => by omega⟩
      · have hab : b ≠ a := by rintro rfl; exact ha hbl
        rw [if_neg ha, if_neg hab]
        refine ⟨by simp; omega, fun he => ?_⟩
        obtain ⟨h1, h2⟩ := ih2 (by simp at he; omega)
        refine ⟨?_, by simp⟩
        rw [List.flatMap_append]
        have e : (firsts l).flatMap (fun q => List.replicate ((l ++ [a]).count q) q) = (firsts l).flatMap (fun q => List.replicate (l.count q) q) := by
          apply List.flatMap_congr
          intro q hq
          have : a ≠ q := by rintro rfl; exact ha (mem_firsts.1 hq)
          rw [List.count_append, List.count_singleton]; simp [this]
        rw [e, ← h1]
        simp only [List.flatMap_cons, List.flatMap_nil, List.append_nil]
        rw [List.count_append, List.count_singleton_self, List.count_eq_zero_of_not_mem ha]
        rfl

/-! ### Sets -/

/-- The first window of the set of a window. -/
theorem firstOf_groups (sig : Int → List K × List K) (pol : Int → Int) (L : List Int) {s : Int} (hs : s ∈ L) :
    ∃ x, (L.filter (fun t => decide (sig t = sig s))).head? = some x ∧ firstOf (groups sig pol L) s = x ∧ x ∈ L ∧ sig x = sig s := by
  have hne : L.filter (fun t => decide (sig t = sig s)) ≠ [] := List.ne_nil_of_mem (List.mem_filter.2 ⟨hs, by simp⟩)
  obtain ⟨x, hx⟩ : ∃ x, (L.filter (fun t => decide (sig t = sig s))).head? = some x := by
    cases h : L.filter (fun t => decide (sig t = sig s)) with
    | nil => exact absurd h hne
    | cons x _ => exact ⟨x, rfl⟩
  have hxm := List.mem_filter.1 (List.mem_of_mem_head? hx)
  refine ⟨x, hx, ?_, hxm.1, by simpa using hxm.2⟩
  unfold firstOf groups
  cases hf : ((firsts (L.map sig)).map (mkSet sig pol L)).find? (fun w => w.spws.contains s) with
  | none =>
    rw [List.find?_eq_none] at hf
    exact absurd (by simp [mkSet, hs]) (hf _ (List.mem_map_of_mem (mem_firsts.2 (List.mem_map_of_mem hs))))
  | some w =>
    have hw := List.mem_of_find?_eq_some hf
    have hc := List.find?_some hf
    obtain ⟨g, hg, rfl⟩ := List.mem_map.1 hw
    simp only [mkSet, List.contains_iff_mem, List.mem_filter, decide_eq_true_eq] at hc
    simp only [Option.bind_some, mkSet, ← hc.2, hx, Option.getD_some]

theorem firstOf_eq_iff (sig : Int → List K × List K) (pol : Int → Int) (L : List Int) {s t : Int} (hs : s ∈ L) (ht : t ∈ L) :
    firstOf (groups sig pol L) s = firstOf (groups sig pol L) t ↔ sig s = sig t := by
  obtain ⟨x, hx, hxf, _, hxs⟩ := firstOf_groups sig pol L hs
  obtain ⟨y, hy, hyf, _, hyt⟩ := firstOf_groups sig pol L ht
  rw [hxf, hyf]
  constructor
  · intro h; rw [← hxs, ← hyt, h]
  · intro h; rw [h, hy] at hx; simpa using hx.symm

/-- Flex-pol objects whose channels and windows fit together. -/
structure Good (o : Obj K V) (fp : List Int) : Prop extends ValidFlex o fp where
  ids : ∀ s, s ∈ o.flexId ↔ s ∈ o.spws
  len : o.flexId.length = o.freq.length
  width : o.width.length = o.freq.length
  chans : o.freq ≠ []

theorem Good.fp_iff {o : Obj K V} {fp : List Int} (v : Good o fp) (q : Int) : q ∈ fp ↔ ∃ s ∈ o.spws, polOf o.spws fp s = q := by
  constructor
  · intro h
    obtain ⟨i, hi, rfl⟩ := List.mem_iff_getElem.1 h
    have hi' : i < o.spws.length := by rw [← v.labels]; exact hi
    refine ⟨o.spws[i], List.getElem_mem hi', ?_⟩
    unfold polOf
    rw [v.spws.idxOf_getElem i hi', List.getElem?_eq_getElem hi]; rfl
  · rintro ⟨s, hs, rfl⟩
    have hi := List.idxOf_lt_length_iff.2 hs
    unfold polOf
    rw [List.getElem?_eq_getElem (by rw [v.labels]; exact hi)]
    exact List.getElem_mem _

/-- Each set has each polarization once. -/
theorem full_sets (sig : Int → List K × List K) (pol : Int → Int) (L uniq : List Int) (hn : L.Nodup)
    (hp : L.Pairwise (fun s t => ¬ (sig s = sig t ∧ pol s = pol t))) (hm : ∀ s ∈ L, pol s ∈ uniq)
    (hall : (groups sig pol L).all (fun w => decide (w.spws.length = uniq.length)) = true) {s : Int} (hs : s ∈ L) {q : Int} (hq : q ∈ uniq) :
    ∃ t ∈ L, sig t = sig s ∧ pol t = q := by
  rw [List.all_eq_true] at hall
  have hlen := hall _ (List.mem_map_of_mem (mem_firsts.2 (List.mem_map_of_mem hs)))
  replace hlen : (L.filter (fun t => decide (sig t = sig s))).length = uniq.length := of_decide_eq_true hlen
  have hnd : ((L.filter (fun t => decide (sig t = sig s))).map pol).Nodup := by
    rw [List.nodup_map_iff_inj_on (hn.filter _)]
    intro a ha b hb he
    have ha' := List.mem_filter.1 ha
    have hb' := List.mem_filter.1 hb
    simp only [decide_eq_true_eq] at ha' hb'
    by_contra hne
    obtain ⟨i, hi, hie⟩ := List.mem_iff_getElem.1 ha'.1
    obtain ⟨j, hj, hje⟩ := List.mem_iff_getElem.1 hb'.1
    rcases Nat.lt_trichotomy i j with h | h | h
    · exact List.pairwise_iff_getElem.1 hp i j hi hj h (by rw [hie, hje]; exact ⟨ha'.2.trans hb'.2.symm, he⟩)
    · subst h; exact hne (hie ▸ hje)
    · exact List.pairwise_iff_getElem.1 hp j i hj hi h (by rw [hie, hje]; exact ⟨hb'.2.trans ha'.2.symm, he.symm⟩)
  have hsub : ((L.filter (fun t => decide (sig t = sig s))).map pol).Subperm uniq := by
    apply List.subperm_of_subset hnd
    intro x hx
    obtain ⟨t, ht, rfl⟩ := List.mem_map.1 hx
    exact hm t (List.mem_filter.1 ht).1
  have hperm := hsub.perm_of_length_le (by rw [List.length_map, hlen])
  obtain ⟨t, ht, rfl⟩ := List.mem_map.1 (hperm.mem_iff.2 hq)
  have ht' := List.mem_filter.1 ht
  exact ⟨t, ht'.1, by simpa using ht'.2, rfl⟩

theorem pairwise_inj {sig : Int → List K × List K} {pol : Int → Int} {L : List Int}
    (hp : L.Pairwise (fun s t => ¬ (sig s = sig t ∧ pol s = pol t))) : ∀ s ∈ L, ∀ t ∈ L, sig s = sig t → pol s = pol t → s = t := by
  intro s hs t ht h1 h2
  by_contra hne
  obtain ⟨i, hi, hie⟩ := List.mem_iff_getElem.1 hs
  obtain ⟨j, hj, hje⟩ := List.mem_iff_getElem.1 ht
  rcases Nat.lt_trichotomy i j with h | h | h
  · exact List.pairwise_iff_getElem.1 hp i j hi hj h (by rw [hie, hje]; exact ⟨h1, h2⟩)
  · subst h; exact hne (hie ▸ hje)
  · exact List.pairwise_iff_getElem.1 hp j i hj hi h (by rw [hie, hje]; exact ⟨h1.symm, h2.symm⟩)

/-- The number of channels of one polarization is the number of channels of the sets. -/
theorem channels_of_pol (sF : Argsort K) (o : Obj K V) (fp : List Int) (v : Good o fp) (pol : Int → Int)
    (hp : (firsts o.flexId).Pairwise (fun s t => ¬ (signature sF o.flexId o.freq o.width s = signature sF o.flexId o.freq o.width t ∧ pol s = pol t)))
    (q : Int) (hfull : ∀ s ∈ firsts o.flexId, ∃ t ∈ firsts o.flexId, signature sF o.flexId o.freq o.width t = signature sF o.flexId o.freq o.width s ∧ pol t = q) :
    ((groups (signature sF o.flexId o.freq o.width) pol (firsts o.flexId)).map (fun w => w.freqs.length)).sum = (o.flexId.map pol).count q := by
  have hJ : (o.flexId.map pol).count q = (o.flexId.filter (fun s => decide (pol s = q))).length := by
    rw [List.count, List.countP_map, List.countP_eq_length_filter]
    congr 1
  have hperm : ((firsts o.flexId).filter (fun s => decide (pol s = q))).map (signature sF o.flexId o.freq o.width) |>.Perm
      (firsts ((firsts o.flexId).map (signature sF o.flexId o.freq o.width))) := by
    rw [List.perm_ext_iff_of_nodup _ (firsts_nodup _)]
    · intro g
      rw [mem_firsts, List.mem_map, List.mem_map]
      constructor
      · rintro ⟨s, hs, rfl⟩; exact ⟨s, (List.mem_filter.1 hs).1, rfl⟩
      · rintro ⟨s, hs, rfl⟩
        obtain ⟨t, ht, h1, h2⟩ := hfull s hs
        exact ⟨t, List.mem_filter.2 ⟨ht, by simpa using h2⟩, h1⟩
    · rw [List.nodup_map_iff_inj_on ((firsts_nodup _).filter _)]
      intro s hs t ht he
      have hs' := List.mem_filter.1 hs
      have ht' := List.mem_filter.1 ht
      simp only [decide_eq_true_eq] at hs' ht'
      exact pairwise_inj hp s hs'.1 t ht'.1 he (hs'.2.trans ht'.2.symm)
  rw [hJ]
  unfold groups
  rw [List.map_map, ← (hperm.map _).sum_eq, List.map_map]
  rw [← ofWin_sum (o.flexId.filter (fun s => decide (pol s = q))) (o.flexId.filter (fun s => decide (pol s = q))) rfl
    ((firsts o.flexId).filter (fun s => decide (pol s = q))) ((firsts_nodup _).filter _)
    (fun s => by rw [List.mem_filter, List.mem_filter, mem_firsts])]
  congr 1
  apply List.map_congr_left
  intro s hs
  have hs' := (List.mem_filter.1 hs).2
  simp only [Function.comp_def, mkSet]
  rw [signature_length, ofWin_length _ _ _ v.len, ofWin_length _ _ _ rfl, List.count_filter (by simpa using hs')]

/-- Windows of one set have the same channels in the same order unless channels have to be sorted. -/
theorem same_window (sF : Argsort K) (o : Obj K V) (pol : Int → Int)
    (hrc : needsChannelOrder o.flexId o.freq o.width (groups (signature sF o.flexId o.freq o.width) pol (firsts o.flexId)) = false)
    {s t : Int} (hs : s ∈ o.flexId) (ht : t ∈ o.flexId)
    (hsig : signature sF o.flexId o.freq o.width s = signature sF o.flexId o.freq o.width t) :
    ofWin o.flexId o.freq s = ofWin o.flexId o.freq t ∧ ofWin o.flexId o.width s = ofWin o.flexId o.width t := by
  generalize signature sF o.flexId o.freq o.width = sig at hrc hsig
  unfold needsChannelOrder at hrc
  rw [List.any_eq_false] at hrc
  have hset := hrc _ (List.mem_map_of_mem (mem_firsts.2 (List.mem_map_of_mem (mem_firsts.2 hs))))
  rw [Bool.not_eq_true, List.any_eq_false] at hset
  have hset' : ∀ x ∈ ((firsts o.flexId).filter (fun y => decide (sig y = sig s))).tail,
      ofWin o.flexId o.freq (((firsts o.flexId).filter (fun y => decide (sig y = sig s))).headD 0) = ofWin o.flexId o.freq x ∧
      ofWin o.flexId o.width (((firsts o.flexId).filter (fun y => decide (sig y = sig s))).headD 0) = ofWin o.flexId o.width x := by
    intro x hx
    have := hset x hx
    rw [Bool.not_eq_true, Bool.not_eq_false', Bool.and_eq_true, decide_eq_true_eq, decide_eq_true_eq] at this
    exact this
  have hin : ∀ x ∈ firsts o.flexId, sig x = sig s →
      ofWin o.flexId o.freq (((firsts o.flexId).filter (fun y => decide (sig y = sig s))).headD 0) = ofWin o.flexId o.freq x ∧
      ofWin o.flexId o.width (((firsts o.flexId).filter (fun y => decide (sig y = sig s))).headD 0) = ofWin o.flexId o.width x := by
    intro x hx hxs
    have hxm : x ∈ (firsts o.flexId).filter (fun y => decide (sig y = sig s)) := List.mem_filter.2 ⟨hx, by simpa using hxs⟩
    cases hF : (firsts o.flexId).filter (fun y => decide (sig y = sig s)) with
    | nil => rw [hF] at hxm; simp at hxm
    | cons h0 rest =>
      rw [hF] at hxm hset'
      rcases List.mem_cons.1 hxm with rfl | hxm
      · exact ⟨rfl, rfl⟩
      · exact hset' x hxm
  have h1 := hin s (mem_firsts.2 hs) rfl
  have h2 := hin t (mem_firsts.2 ht) hsig.symm
  exact ⟨h1.1.symm.trans h2.1, h1.2.symm.trans h2.2⟩

/-- What the check of the window order establishes. -/
theorem spwOrder_blocks (sF : Argsort K) (o : Obj K V) (fp : List Int) (v : Good o fp)
    (hp : (firsts o.flexId).Pairwise (fun s t => ¬ (signature sF o.flexId o.freq o.width s = signature sF o.flexId o.freq o.width t ∧
      polOf o.spws fp s = polOf o.spws fp t)))
    (hall : (groups (signature sF o.flexId o.freq o.width) (polOf o.spws fp) (firsts o.flexId)).all
      (fun w => decide (w.spws.length = (unique fp).length)) = true)
    (hrs : needsSpwOrder (unique fp) (o.flexId.map (polOf o.spws fp))
      (o.flexId.map (firstOf (groups (signature sF o.flexId o.freq o.width) (polOf o.spws fp) (firsts o.flexId)))) = false) :
    ∃ (P : List Int) (m : Nat) (A : List Int), P.Nodup ∧ 0 < m ∧ o.flexId.map (polOf o.spws fp) = P.flatMap (List.replicate m) ∧
      (∀ q ∈ P, ofWin (o.flexId.map (polOf o.spws fp))
        (o.flexId.map (firstOf (groups (signature sF o.flexId o.freq o.width) (polOf o.spws fp) (firsts o.flexId)))) q = A) ∧
      ((groups (signature sF o.flexId o.freq o.width) (polOf o.spws fp) (firsts o.flexId)).map (fun w => w.freqs.length)).sum = m := by
  have hun : (unique fp).Nodup := (unique_sorted fp).imp (fun h => ne_of_lt h)
  have hidne : o.flexId ≠ [] := by rw [← List.length_pos_iff, v.len]; exact List.length_pos_iff.2 v.chans
  have hmem : ∀ s ∈ firsts o.flexId, polOf o.spws fp s ∈ unique fp := fun s hs =>
    mem_unique.2 ((v.fp_iff _).2 ⟨s, (v.ids s).1 (mem_firsts.1 hs), rfl⟩)
  have hfull := fun s (hs : s ∈ firsts o.flexId) q (hq : q ∈ unique fp) =>
    full_sets _ _ _ _ (firsts_nodup _) hp hmem hall hs hq
  -- the polarizations stand in blocks
  have hPmem : ∀ q, q ∈ firsts (o.flexId.map (polOf o.spws fp)) ↔ q ∈ unique fp := by
    intro q
    rw [mem_firsts, mem_unique, v.fp_iff, List.mem_map]
    constructor
    · rintro ⟨s, hs, h⟩; exact ⟨s, (v.ids s).1 hs, h⟩
    · rintro ⟨s, hs, h⟩; exact ⟨s, (v.ids s).2 hs, h⟩
  have hPlen : (firsts (o.flexId.map (polOf o.spws fp))).length = (unique fp).length :=
    ((List.perm_ext_iff_of_nodup (firsts_nodup _) hun).2 hPmem).length_eq
  unfold needsSpwOrder at hrs
  rw [Bool.or_eq_false_iff, List.any_eq_false] at hrs
  obtain ⟨hst, hrs⟩ := hrs
  simp only [ne_eq, decide_eq_false_iff_not, not_not] at hst
  obtain ⟨s0, hs0⟩ := List.exists_mem_of_ne_nil _ hidne
  have hune : unique fp ≠ [] := List.ne_nil_of_mem (hmem s0 (mem_firsts.2 hs0))
  have hupos : 0 < (unique fp).length := List.length_pos_iff.2 hune
  obtain ⟨hblocks, _⟩ := (steps_firsts (o.flexId.map (polOf o.spws fp)) (by simpa using hidne)).2 (by rw [hPlen, hst]; omega)
  obtain ⟨u, us, hu⟩ : ∃ u us, unique fp = u :: us := by
    cases h : unique fp with
    | nil => exact absurd h hune
    | cons u us => exact ⟨u, us, rfl⟩
  have hord : ∀ q ∈ unique fp, ofWin (o.flexId.map (polOf o.spws fp))
      (o.flexId.map (firstOf (groups (signature sF o.flexId o.freq o.width) (polOf o.spws fp) (firsts o.flexId)))) q =
      ofWin (o.flexId.map (polOf o.spws fp))
      (o.flexId.map (firstOf (groups (signature sF o.flexId o.freq o.width) (polOf o.spws fp) (firsts o.flexId)))) u := by
    intro q hq
    rw [hu] at hq hrs
    rcases List.mem_cons.1 hq with rfl | hq
    · rfl
    · have := hrs q hq
      simpa using this
  have hcount : ∀ q ∈ unique fp, (o.flexId.map (polOf o.spws fp)).count q = (o.flexId.map (polOf o.spws fp)).count u := by
    intro q hq
    have := congrArg List.length (hord q hq)
    rwa [ofWin_length _ _ _ (by simp), ofWin_length _ _ _ (by simp)] at this
  refine ⟨firsts (o.flexId.map (polOf o.spws fp)), (o.flexId.map (polOf o.spws fp)).count u, _, firsts_nodup _, ?_, ?_,
    fun q hq => hord q ((hPmem q).1 hq), ?_⟩
  · rw [List.count_pos_iff]
    exact mem_firsts.1 ((hPmem u).2 (by rw [hu]; simp))
  · conv_lhs => rw [hblocks]
    apply List.flatMap_congr
    intro q hq
    rw [hcount q ((hPmem q).1 hq)]
  · exact channels_of_pol sF o fp v _ hp u (fun s hs => hfull s hs u (by rw [hu]; simp))

/-- **The checks pass only for objects that are ready.** -/
theorem checks_ready (sF : Argsort K) (o : Obj K V) (fp : List Int) (v : Good o fp)
    (hp : (firsts o.flexId).Pairwise (fun s t => ¬ (signature sF o.flexId o.freq o.width s = signature sF o.flexId o.freq o.width t ∧
      polOf o.spws fp s = polOf o.spws fp t)))
    (hall : (groups (signature sF o.flexId o.freq o.width) (polOf o.spws fp) (firsts o.flexId)).all
      (fun w => decide (w.spws.length = (unique fp).length)) = true)
    (hrc : needsChannelOrder o.flexId o.freq o.width (groups (signature sF o.flexId o.freq o.width) (polOf o.spws fp) (firsts o.flexId)) = false)
    (hrs : needsSpwOrder (unique fp) (o.flexId.map (polOf o.spws fp))
      (o.flexId.map (firstOf (groups (signature sF o.flexId o.freq o.width) (polOf o.spws fp) (firsts o.flexId)))) = false) :
    ∃ P m A, Ready o (polOf o.spws fp) (firstOf (groups (signature sF o.flexId o.freq o.width) (polOf o.spws fp) (firsts o.flexId))) P m A ∧
      ((groups (signature sF o.flexId o.freq o.width) (polOf o.spws fp) (firsts o.flexId)).map (fun w => w.freqs.length)).sum = m := by
  have hiff := fun s (hs : s ∈ o.flexId) t (ht : t ∈ o.flexId) =>
    firstOf_eq_iff (signature sF o.flexId o.freq o.width) (polOf o.spws fp) (firsts o.flexId) (mem_firsts.2 hs) (mem_firsts.2 ht)
  obtain ⟨P, m, A, hP, hm, hb, ho, hs⟩ := spwOrder_blocks sF o fp v hp hall hrs
  refine ⟨P, m, A, ⟨hP, hm, v.len, v.width, hb, ho, ?_, ?_, ?_⟩, hs⟩
  · intro s hs t ht he
    exact (same_window sF o _ hrc hs ht ((hiff s hs t ht).1 he)).1
  · intro s hs t ht he
    exact (same_window sF o _ hrc hs ht ((hiff s hs t ht).1 he)).2
  · intro s hs t ht he hpol
    exact pairwise_inj hp s (mem_firsts.2 hs) t (mem_firsts.2 ht) ((hiff s hs t ht).1 he) hpol

end Verif.FlexPol
