import Verif.FlexPol.Reorder

/-! `remove_flex_pol` with combining of windows, for any flex-pol object. -/
namespace Verif.FlexPol
open Verif.Np Verif.FreqSort

set_option linter.unusedSectionVars false

variable {K V : Type} [Field K] [LinearOrder K]

/-! ### Specification -/

/-- The frequencies and widths of the channels of a window. -/
def ChannelsOf (o : Obj K V) (s : Int) (l : List (K × K)) : Prop :=
  ∃ cs : List Nat, cs.Pairwise (· < ·) ∧ (∀ f : Nat, f ∈ cs ↔ o.flexId[f]? = some s) ∧
    l.map some = cs.map (fun f => (o.freq[f]?).bind (fun a => (o.width[f]?).map (fun b => (a, b))))

/-- Two windows have the same channels, in whatever order. -/
def SameChannels (o : Obj K V) (s t : Int) : Prop := ∀ l l', ChannelsOf o s l → ChannelsOf o t l' → l.Perm l'

/-- Window `s` has polarization `q`. -/
def WinPol (o : Obj K V) (s q : Int) : Prop := ∃ (i : Nat) (fp : List Int), o.flexPol = some fp ∧ o.spws[i]? = some s ∧ fp[i]? = some q

/-- The frequencies of the channels of each window are different. -/
def DistinctFreqs (o : Obj K V) : Prop := ∀ f g : Nat, ∀ s : Int, o.flexId[f]? = some s → o.flexId[g]? = some s → o.freq[f]? = o.freq[g]? → f = g

/-- No two windows have the same channels and the same polarization. -/
def NoConflict (o : Obj K V) : Prop := ∀ s ∈ o.spws, ∀ t ∈ o.spws, ∀ q, WinPol o s q → WinPol o t q → SameChannels o s t → s = t

/-- For each window and each polarization there is a window with the same channels and that polarization. -/
def Matched (o : Obj K V) : Prop := ∀ s ∈ o.spws, ∀ t ∈ o.spws, ∀ q, WinPol o t q → ∃ u ∈ o.spws, SameChannels o s u ∧ WinPol o u q

/-! ### Facts -/

theorem winPol_iff {o : Obj K V} {fp : List Int} (v : Good o fp) {s : Int} (hs : s ∈ o.spws) (q : Int) : WinPol o s q ↔ polOf o.spws fp s = q := by
  have hi := List.idxOf_lt_length_iff.2 hs
  have hi' : o.spws.idxOf s < fp.length := by rw [v.labels]; exact hi
  unfold polOf
  constructor
  · rintro ⟨i, fp', h1, h2, h3⟩
    rw [v.flexPol] at h1
    obtain rfl := Option.some.inj h1
    have hlt : i < o.spws.length := by
      by_contra hc; rw [List.getElem?_eq_none (by omega)] at h2; simp at h2
    rw [List.getElem?_eq_getElem hlt] at h2
    rw [← Option.some.inj h2, v.spws.idxOf_getElem i hlt, h3]; rfl
  · intro h
    refine ⟨o.spws.idxOf s, fp, v.flexPol, by rw [List.getElem?_eq_getElem hi, List.getElem_idxOf hi], ?_⟩
    rw [List.getElem?_eq_getElem hi'] at h ⊢
    simpa using h

theorem zip_get {α β : Type} (xs : List α) (ys : List β) (i : Nat) :
    (xs.zip ys)[i]? = (xs[i]?).bind (fun a => (ys[i]?).map (fun b => (a, b))) := by
  rw [List.zip, List.getElem?_zipWith]
  cases xs[i]? <;> cases ys[i]? <;> rfl

theorem channelsOf_iff {o : Obj K V} {fp : List Int} (v : Good o fp) (s : Int) (l : List (K × K)) :
    ChannelsOf o s l ↔ l = ofWin o.flexId (o.freq.zip o.width) s := by
  have hlz : o.flexId.length = (o.freq.zip o.width).length := by rw [List.length_zip, v.len, v.width]; omega
  have hch : ∀ f : Nat, f ∈ chans o.flexId s (List.range o.flexId.length) ↔ o.flexId[f]? = some s := by
    intro f
    unfold chans
    rw [List.mem_filter, List.mem_range]
    constructor
    · intro h; simpa using h.2
    · intro h
      refine ⟨?_, by simpa using h⟩
      by_contra hc; rw [List.getElem?_eq_none (by omega)] at h; simp at h
  have hlt : ∀ i ∈ chans o.flexId s (List.range o.flexId.length), i < (o.freq.zip o.width).length := by
    intro i hi
    rw [← hlz]
    exact List.mem_range.1 (List.mem_filter.1 hi).1
  have hval : (ofWin o.flexId (o.freq.zip o.width) s).map some = (chans o.flexId s (List.range o.flexId.length)).map
      (fun f => (o.freq[f]?).bind (fun a => (o.width[f]?).map (fun b => (a, b)))) := by
    rw [ofWin_chans _ _ hlz, fancy_map _ _ hlt]
    exact List.map_congr_left (fun f _ => zip_get _ _ f)
  constructor
  · rintro ⟨cs, h1, h2, h3⟩
    have : cs = chans o.flexId s (List.range o.flexId.length) :=
      strictSorted_ext h1 (List.Pairwise.filter _ List.pairwise_lt_range) (fun f => (h2 f).trans (hch f).symm)
    rw [this, ← hval] at h3
    exact List.map_injective_iff.2 (Option.some_injective _) h3
  · rintro rfl
    exact ⟨_, List.Pairwise.filter _ List.pairwise_lt_range, hch, hval⟩

theorem sameChannels_iff {o : Obj K V} {fp : List Int} (v : Good o fp) (s t : Int) :
    SameChannels o s t ↔ (ofWin o.flexId (o.freq.zip o.width) s).Perm (ofWin o.flexId (o.freq.zip o.width) t) := by
  unfold SameChannels
  constructor
  · intro h; exact h _ _ ((channelsOf_iff v s _).2 rfl) ((channelsOf_iff v t _).2 rfl)
  · intro h l l' hl hl'
    rw [(channelsOf_iff v s l).1 hl, (channelsOf_iff v t l').1 hl']; exact h

theorem distinct_nodup {o : Obj K V} {fp : List Int} (v : Good o fp) (hd : DistinctFreqs o) (s : Int) : (ofWin o.flexId o.freq s).Nodup := by
  rw [ofWin_chans _ _ v.len]
  unfold fancy
  rw [List.Nodup, List.pairwise_filterMap]
  have hn : (chans o.flexId s (List.range o.flexId.length)).Nodup := (List.nodup_range).filter _
  refine List.Pairwise.imp_of_mem ?_ hn
  intro f g hf hg hne a ha b hb hab
  apply hne
  have hf' := (List.mem_filter.1 hf).2
  have hg' := (List.mem_filter.1 hg).2
  exact hd f g s (by simpa using hf') (by simpa using hg') (by rw [ha, hb, hab])

/-- With different frequencies, the signature tells whether the channels are the same. -/
theorem signature_iff (sF : Argsort K) {o : Obj K V} {fp : List Int} (v : Good o fp) (hd : DistinctFreqs o) (s t : Int) :
    signature sF o.flexId o.freq o.width s = signature sF o.flexId o.freq o.width t ↔ SameChannels o s t := by
  rw [sameChannels_iff v]
  have hw : o.flexId.length = o.width.length := v.len.trans v.width.symm
  constructor
  · exact signature_perm sF o.flexId o.freq o.width v.len hw s t
  · intro h
    have hZ : ∀ u, ∃ Z : List (K × K), Z.Perm (ofWin o.flexId (o.freq.zip o.width) u) ∧ Z.Pairwise (fun a b => a.1 ≤ b.1) ∧
        (signature sF o.flexId o.freq o.width u).1 = Z.map Prod.fst ∧ (signature sF o.flexId o.freq o.width u).2 = Z.map Prod.snd := by
      intro u
      have hl : (ofWin o.flexId o.freq u).length = (ofWin o.flexId o.width u).length := by
        rw [ofWin_length _ _ _ v.len, ofWin_length _ _ _ hw]
      refine ⟨fancy ((ofWin o.flexId o.freq u).zip (ofWin o.flexId o.width u)) (sF.run (ofWin o.flexId o.freq u)), ?_, ?_, ?_, ?_⟩
      · rw [ofWin_zip _ _ _ _ v.len hw]
        apply fancy_perm
        rw [List.length_zip, ← hl, Nat.min_self]
        exact (sF.sorts _).1
      · have hs := fancy_sorted (ofWin o.flexId o.freq u) ((ofWin o.flexId o.freq u).zip (ofWin o.flexId o.width u)) (fun z => some z.1)
          (by
            have e := (fancy_fst _ _ hl (List.range (ofWin o.flexId o.freq u).length)).1
            rw [fancy_range] at e
            have e2 := fancy_range ((ofWin o.flexId o.freq u).zip (ofWin o.flexId o.width u))
            rw [List.length_zip, ← hl, Nat.min_self] at e2
            rw [e2] at e
            conv_lhs => rw [← e]
            rw [List.map_map]; rfl) _ (sF.sorts (ofWin o.flexId o.freq u))
        exact hs.imp (fun h => h _ _ rfl rfl)
      · exact ((fancy_fst _ _ hl _).1).symm
      · exact ((fancy_fst _ _ hl _).2).symm
    obtain ⟨Z, z1, z2, z3, z4⟩ := hZ s
    obtain ⟨W, w1, w2, w3, w4⟩ := hZ t
    have hp : Z.Perm W := (z1.trans h).trans w1.symm
    have hnd : (Z.map Prod.fst).Nodup := by
      rw [← z3]
      exact (fancy_perm _ _ (sF.sorts _).1).nodup_iff.2 (distinct_nodup v hd s)
    have he : Z = W := by
      refine List.Perm.eq_of_pairwise (le := fun a b => a.1 ≤ b.1) ?_ z2 w2 hp
      intro a b ha hb h1 h2
      exact List.inj_on_of_nodup_map hnd ha (hp.mem_iff.2 hb) (le_antisymm h1 h2)
    exact Prod.ext (by rw [z3, w3, he]) (by rw [z4, w4, he])

theorem noConflict_iff (sF : Argsort K) {o : Obj K V} {fp : List Int} (v : Good o fp) (hd : DistinctFreqs o) :
    NoConflict o ↔ (firsts o.flexId).Pairwise (fun s t => ¬ (signature sF o.flexId o.freq o.width s = signature sF o.flexId o.freq o.width t ∧
      polOf o.spws fp s = polOf o.spws fp t)) := by
  constructor
  · intro h
    refine List.Pairwise.imp_of_mem ?_ (firsts_nodup o.flexId)
    rintro s t hs ht hne ⟨h1, h2⟩
    have hs' := (v.ids s).1 (mem_firsts.1 hs)
    have ht' := (v.ids t).1 (mem_firsts.1 ht)
    exact hne (h s hs' t ht' _ ((winPol_iff v hs' _).2 rfl) ((winPol_iff v ht' _).2 h2.symm) ((signature_iff sF v hd s t).1 h1))
  · intro h s hs t ht q h1 h2 h3
    exact pairwise_inj h s (mem_firsts.2 ((v.ids s).2 hs)) t (mem_firsts.2 ((v.ids t).2 ht)) ((signature_iff sF v hd s t).2 h3)
      (((winPol_iff v hs q).1 h1).trans ((winPol_iff v ht q).1 h2).symm)

theorem matched_iff (sF : Argsort K) {o : Obj K V} {fp : List Int} (v : Good o fp) (hd : DistinctFreqs o) (hc : NoConflict o) :
    Matched o ↔ (groups (signature sF o.flexId o.freq o.width) (polOf o.spws fp) (firsts o.flexId)).all
      (fun w => decide (w.spws.length = (unique fp).length)) = true := by
  have hun : (unique fp).Nodup := (unique_sorted fp).imp (fun h => ne_of_lt h)
  have hp := (noConflict_iff sF v hd).1 hc
  have hmem : ∀ s ∈ firsts o.flexId, polOf o.spws fp s ∈ unique fp := fun s hs =>
    mem_unique.2 ((v.fp_iff _).2 ⟨s, (v.ids s).1 (mem_firsts.1 hs), rfl⟩)
  constructor
  · intro h
    rw [List.all_eq_true]
    intro w hw
    obtain ⟨g, hg, rfl⟩ := List.mem_map.1 hw
    obtain ⟨s, hs, rfl⟩ := List.mem_map.1 (mem_firsts.1 hg)
    have hs' := (v.ids s).1 (mem_firsts.1 hs)
    have hlen : ((firsts o.flexId).filter (fun t => decide (signature sF o.flexId o.freq o.width t = signature sF o.flexId o.freq o.width s))).length =
        (unique fp).length := by
      rw [← List.length_map (f := polOf o.spws fp)]
      apply List.Perm.length_eq
      rw [List.perm_ext_iff_of_nodup _ hun]
      · intro q
        constructor
        · intro hq
          obtain ⟨t, ht, rfl⟩ := List.mem_map.1 hq
          exact hmem t (List.mem_filter.1 ht).1
        · intro hq
          obtain ⟨t, ht, htq⟩ := (v.fp_iff q).1 (mem_unique.1 hq)
          obtain ⟨u, hu, hsu, huq⟩ := h s hs' t ht q ((winPol_iff v ht q).2 htq)
          refine List.mem_map.2 ⟨u, List.mem_filter.2 ⟨mem_firsts.2 ((v.ids u).2 hu), ?_⟩, (winPol_iff v hu q).1 huq⟩
          simpa using ((signature_iff sF v hd s u).2 hsu).symm
      · rw [List.nodup_map_iff_inj_on ((firsts_nodup _).filter _)]
        intro a ha b hb he
        have ha' := List.mem_filter.1 ha
        have hb' := List.mem_filter.1 hb
        simp only [decide_eq_true_eq] at ha' hb'
        exact pairwise_inj hp a ha'.1 b hb'.1 (ha'.2.trans hb'.2.symm) he
    exact decide_eq_true hlen
  · intro h s hs t ht q hq
    have hq' : q ∈ unique fp := mem_unique.2 ((v.fp_iff q).2 ⟨t, ht, (winPol_iff v ht q).1 hq⟩)
    obtain ⟨u, hu, h1, h2⟩ := full_sets _ _ _ _ (firsts_nodup _) hp hmem h (mem_firsts.2 ((v.ids s).2 hs)) hq'
    have hu' := (v.ids u).1 (mem_firsts.1 hu)
    exact ⟨u, hu', (signature_iff sF v hd s u).1 h1.symm, (winPol_iff v hu' q).2 h2⟩

/-! ### The theorem -/

/-- C61. **Combining windows keeps every visibility at its frequency, width and polarization.** -/
theorem remove_combines (sI : Argsort Int) (sF : Argsort K) (blank : V) (o : Obj K V) (fp : List Int) (v : Good o fp) (hd : DistinctFreqs o)
    (hc : NoConflict o) (hm : Matched o) :
    ∃ x τ, remove sF (reorderFlex sI sF) blank true o = some x ∧ Kept o x τ := by
  unfold remove
  rw [v.flexPol]
  simp only
  by_cases h1 : o.spws.length = 1 ∨ (unique fp).length = 1
  · rw [if_pos h1]
    have hidne : o.flexId ≠ [] := by rw [← List.length_pos_iff, v.len]; exact List.length_pos_iff.2 v.chans
    obtain ⟨s0, hs0⟩ := List.exists_mem_of_ne_nil _ hidne
    have hq0 : polOf o.spws fp s0 ∈ unique fp := mem_unique.2 ((v.fp_iff _).2 ⟨s0, (v.ids s0).1 hs0, rfl⟩)
    have hone : (unique fp).length = 1 := by
      rcases h1 with h1 | h1
      · rw [← v.labels] at h1
        obtain ⟨q, hq⟩ := List.length_eq_one_iff.1 h1
        have hsub : ∀ z ∈ unique fp, z = q := fun z hz => by have := mem_unique.1 hz; rw [hq] at this; simpa using this
        have hun : (unique fp).Nodup := (unique_sorted fp).imp (fun h => ne_of_lt h)
        have hle : (unique fp).length ≤ [q].length := (List.subperm_of_subset hun (fun z hz => by simp [hsub z hz])).length_le
        have : 0 < (unique fp).length := List.length_pos_of_mem hq0
        simp at hle; omega
      · exact h1
    obtain ⟨q0, hq0'⟩ := List.length_eq_one_iff.1 hone
    refine ⟨_, fun f _ => f, rfl, ⟨rfl, rfl, ?_, v.width, v.len, fun f hf _ _ => hf, ?_, ?_, ?_, fun _ _ _ _ _ _ => Iff.rfl⟩⟩
    · show (unique fp).Nodup
      rw [hq0']; simp
    · intro f hf p hp f' hf' p' hp' he
      refine ⟨he, ?_⟩
      have e1 : p < 1 := by rw [← hone]; exact hp
      have e2 : p' < 1 := by rw [← hone]; exact hp'
      omega
    · intro t ht
      exact ⟨t, ht, 0, by show 0 < (unique fp).length; omega, rfl⟩
    · intro f hf p q hq
      have hq' : (unique fp)[p]? = some q := hq
      have hf' : f < o.flexId.length := by rw [v.len]; exact hf
      have hp0 : p = 0 := by
        by_contra hne
        rw [List.getElem?_eq_none (by omega)] at hq'; simp at hq'
      subst hp0
      have hqq : q = q0 := by rw [hq0'] at hq'; simpa using hq'.symm
      have hs := (v.ids _).1 (List.getElem_mem hf')
      refine ⟨rfl, rfl, ?_, fun _ _ => rfl⟩
      have hpol : polOf o.spws fp o.flexId[f] = q := by
        have : polOf o.spws fp o.flexId[f] ∈ unique fp := mem_unique.2 ((v.fp_iff _).2 ⟨_, hs, rfl⟩)
        rw [hq0'] at this
        rw [hqq]; simpa using this
      obtain ⟨i, fp', g1, g2, g3⟩ := (winPol_iff v hs q).2 hpol
      exact ⟨i, _, fp', g1, List.getElem?_eq_getElem hf', g2, g3⟩
  · rw [if_neg h1]
    simp only [if_true]
    have hp := (noConflict_iff sF v hd).1 hc
    have hall := (matched_iff sF v hd hc).1 hm
    rw [foldlM_groups_ok _ _ _ hp]
    simp only
    rw [if_pos hall]
    generalize hrc : needsChannelOrder o.flexId o.freq o.width (groups (signature sF o.flexId o.freq o.width) (polOf o.spws fp) (firsts o.flexId)) = rc
    generalize hrs : needsSpwOrder (unique fp) (o.flexId.map (polOf o.spws fp))
      (o.flexId.map (firstOf (groups (signature sF o.flexId o.freq o.width) (polOf o.spws fp) (firsts o.flexId)))) = rs
    have hmain : ∃ o' fp' idx P m A, (if (rc || rs) = true then reorderFlex sI sF (unique fp)
          (groups (signature sF o.flexId o.freq o.width) (polOf o.spws fp) (firsts o.flexId)) rc rs o else some o) = some o' ∧
        Moved o o' fp fp' idx ∧
        Ready o' (polOf o.spws fp) (firstOf (groups (signature sF o.flexId o.freq o.width) (polOf o.spws fp) (firsts o.flexId))) P m A ∧
        ((groups (signature sF o.flexId o.freq o.width) (polOf o.spws fp) (firsts o.flexId)).map (fun w => w.freqs.length)).sum = m := by
      by_cases hb : (rc || rs) = true
      · rw [if_pos hb]
        exact moved_ready sI sF o fp v (fun s _ => distinct_nodup v hd s) hp hall rc rs hrc hrs
      · rw [if_neg hb]
        rw [Bool.not_eq_true, Bool.or_eq_false_iff] at hb
        obtain ⟨P, m, A, h2, h3⟩ := checks_ready sF o fp v hp hall (hrc.trans hb.1) (hrs.trans hb.2)
        exact ⟨o, fp, _, P, m, A, rfl, moved_self v, h2, h3⟩
    obtain ⟨o', fp', idx, P, m, A, ho', hmv, hready, hsum⟩ := hmain
    rw [ho']
    refine ⟨_, _, rfl, hmv.kept v (τ := fun f p => f + m * p) ?_⟩
    · beta_reduce
      rw [hmv.flexPol, Option.getD_some]
      have hsp : ∀ s ∈ o'.flexId, s ∈ o.spws := by
        intro s hs
        rw [hmv.flexId] at hs
        exact (v.ids s).1 ((fancy_perm o.flexId idx (by rw [v.len]; exact hmv.perm)).mem_iff.1 hs)
      exact hready.kept fp' hmv.flexPol (fun s hs => (hmv.pol s (hsp s hs)).symm) (fun s hs => (hmv.spws s).2 (hsp s hs)) hmv.labels _ rfl hsum

/-- Two windows with the same channels and the same polarization are an error. -/
theorem remove_conflict (sI : Argsort Int) (sF : Argsort K) (blank : V) (o : Obj K V) (fp : List Int) (v : Good o fp) (hd : DistinctFreqs o)
    (hc : ¬ NoConflict o) (hmany : ∃ q ∈ fp, ∃ q' ∈ fp, q ≠ q') : remove sF (reorderFlex sI sF) blank true o = none := by
  unfold remove
  rw [v.flexPol]
  simp only
  have h1 : ¬ (o.spws.length = 1 ∨ (unique fp).length = 1) := by
    obtain ⟨q, hq, q', hq', hne⟩ := hmany
    rintro (h | h)
    · rw [← v.labels] at h
      obtain ⟨z, hz⟩ := List.length_eq_one_iff.1 h
      rw [hz] at hq hq'
      simp at hq hq'
      exact hne (hq.trans hq'.symm)
    · obtain ⟨z, hz⟩ := List.length_eq_one_iff.1 h
      have e1 := mem_unique.2 hq
      have e2 := mem_unique.2 hq'
      rw [hz] at e1 e2
      simp at e1 e2
      exact hne (e1.trans e2.symm)
  rw [if_neg h1]
  simp only [if_true]
  rw [foldlM_groups_error _ _ _ (fun h => hc ((noConflict_iff sF v hd).2 h))]

/-- Without a match for every window and polarization, windows are not combined. -/
theorem remove_unmatched (sI : Argsort Int) (sF : Argsort K) (blank : V) (o : Obj K V) (fp : List Int) (v : Good o fp) (hd : DistinctFreqs o)
    (hc : NoConflict o) (hm : ¬ Matched o) :
    remove sF (reorderFlex sI sF) blank true o = remove sF (reorderFlex sI sF) blank false o := by
  unfold remove
  rw [v.flexPol]
  simp only
  by_cases h1 : o.spws.length = 1 ∨ (unique fp).length = 1
  · rw [if_pos h1, if_pos h1]
  · rw [if_neg h1, if_neg h1]
    simp only [if_true, Bool.false_eq_true, if_false]
    rw [foldlM_groups_ok _ _ _ ((noConflict_iff sF v hd).1 hc)]
    simp only
    rw [if_neg (fun h => hm ((matched_iff sF v hd hc).2 h))]

end Verif.FlexPol
