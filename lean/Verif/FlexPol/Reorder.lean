import Verif.FlexPol.Check
import Verif.FreqSort.Props

/-! Sorting channels and windows before windows are combined. -/
namespace Verif.FlexPol
open Verif.Np Verif.FreqSort

set_option linter.unusedSectionVars false

variable {K V : Type} [Field K] [LinearOrder K]

/-! ### Picking -/

theorem fancy_get {α : Type} {xs : List α} {idx : List Nat} (h : ∀ i ∈ idx, i < xs.length) (f : Nat) :
    (fancy xs idx)[f]? = (idx[f]?).bind (fun i => xs[i]?) := by
  have := congrArg (fun l => l[f]?) (fancy_map xs idx h)
  simp only [List.getElem?_map] at this
  cases h1 : (fancy xs idx)[f]? with
  | none =>
    rw [h1] at this
    cases h2 : idx[f]? with
    | none => rfl
    | some i => rw [h2] at this; simp at this
  | some x =>
    rw [h1] at this
    cases h2 : idx[f]? with
    | none => rw [h2] at this; simp at this
    | some i => rw [h2] at this; simpa using this

theorem fancy_length {α : Type} {xs : List α} {idx : List Nat} (h : ∀ i ∈ idx, i < xs.length) : (fancy xs idx).length = idx.length := by
  simpa using congrArg List.length (fancy_map xs idx h)

theorem ofWin_fancy {α : Type} (ids : List Int) (xs : List α) (hl : ids.length = xs.length) (s : Int) : ∀ idx : List Nat,
    (∀ i ∈ idx, i < ids.length) → ofWin (fancy ids idx) (fancy xs idx) s = fancy xs (chans ids s idx) := by
  intro idx
  induction idx with
  | nil => intro _; rfl
  | cons i idx ih =>
    intro h
    have hi := h i (by simp)
    have hi' : i < xs.length := by omega
    have e1 : fancy ids (i :: idx) = ids[i] :: fancy ids idx := by simp [fancy, hi]
    have e2 : fancy xs (i :: idx) = xs[i] :: fancy xs idx := by simp [fancy, hi']
    rw [e1, e2, ofWin_cons, ih (fun j hj => h j (by simp [hj]))]
    by_cases hs : ids[i] = s
    · simp [chans, hi, hs, fancy, hi']
    · simp [chans, hi, hs]

theorem ofWin_chans {α : Type} (ids : List Int) (xs : List α) (hl : ids.length = xs.length) (s : Int) :
    ofWin ids xs s = fancy xs (chans ids s (List.range ids.length)) := by
  rw [← ofWin_fancy ids xs hl s _ (fun i hi => List.mem_range.1 hi), fancy_range, hl, fancy_range]

theorem fancy_fst {α β : Type} (xs : List α) (ys : List β) (hl : xs.length = ys.length) (idx : List Nat) :
    (fancy (xs.zip ys) idx).map Prod.fst = fancy xs idx ∧ (fancy (xs.zip ys) idx).map Prod.snd = fancy ys idx := by
  have key : ∀ i : Nat, ((xs.zip ys)[i]?).map Prod.fst = xs[i]? ∧ ((xs.zip ys)[i]?).map Prod.snd = ys[i]? := by
    intro i
    by_cases hi : i < xs.length
    · have : i < ys.length := by omega
      simp [List.getElem?_zip_eq_some, hi, this, List.zip, List.getElem?_zipWith]
    · simp [List.zip, List.getElem?_zipWith, List.getElem?_eq_none (not_lt.1 hi), List.getElem?_eq_none (show ys.length ≤ i by omega)]
  constructor
  · unfold fancy; rw [List.map_filterMap]; congr 1; funext i; exact (key i).1
  · unfold fancy; rw [List.map_filterMap]; congr 1; funext i; exact (key i).2

/-- Sorted channels of windows with the same signature. -/
theorem sorted_same (sF : Argsort K) (ids : List Int) (freq width : List K) (hf : ids.length = freq.length) (hw : ids.length = width.length)
    (idx : List Nat) (hp : idx.Perm (List.range freq.length)) {s t : Int} (hsig : signature sF ids freq width s = signature sF ids freq width t)
    (hs : (chans ids s idx).Pairwise (FreqLe freq)) (ht : (chans ids t idx).Pairwise (FreqLe freq)) (hd : (ofWin ids freq s).Nodup) :
    fancy freq (chans ids s idx) = fancy freq (chans ids t idx) ∧ fancy width (chans ids s idx) = fancy width (chans ids t idx) := by
  have hfw : freq.length = width.length := by omega
  have hlz : ids.length = (freq.zip width).length := by rw [List.length_zip]; omega
  have hperm : ∀ u, (fancy (freq.zip width) (chans ids u idx)).Perm (ofWin ids (freq.zip width) u) := by
    intro u
    rw [ofWin_chans ids _ hlz u]
    unfold fancy chans
    rw [hf]
    exact (hp.filter _).filterMap _
  have hst := ((hperm s).trans (signature_perm sF ids freq width hf hw s t hsig)).trans (hperm t).symm
  have hsort : ∀ u, (chans ids u idx).Pairwise (FreqLe freq) →
      (fancy (freq.zip width) (chans ids u idx)).Pairwise (fun a b => a.1 ≤ b.1) := by
    intro u hu
    unfold fancy
    rw [List.pairwise_filterMap]
    refine hu.imp ?_
    intro i j hij a ha b hb
    rw [List.getElem?_zip_eq_some] at ha hb
    exact hij _ _ ha.1 hb.1
  have hnd : ((fancy (freq.zip width) (chans ids s idx)).map Prod.fst).Nodup := by
    have e : (ofWin ids (freq.zip width) s).map Prod.fst = ofWin ids freq s := by
      rw [ofWin_chans ids _ hlz s, (fancy_fst freq width hfw _).1, ← ofWin_chans ids freq hf s]
    rw [((hperm s).map Prod.fst).nodup_iff, e]; exact hd
  have heq : fancy (freq.zip width) (chans ids s idx) = fancy (freq.zip width) (chans ids t idx) := by
    refine List.Perm.eq_of_pairwise (le := fun a b => a.1 ≤ b.1) ?_ (hsort s hs) (hsort t ht) hst
    intro a b ha hb h1 h2
    exact List.inj_on_of_nodup_map hnd ha (hst.mem_iff.2 hb) (le_antisymm h1 h2)
  refine ⟨?_, ?_⟩
  · rw [← (fancy_fst freq width hfw _).1, heq, (fancy_fst freq width hfw _).1]
  · rw [← (fancy_fst freq width hfw _).2, heq, (fancy_fst freq width hfw _).2]

/-! ### Moving channels -/

/-- `o'` is `o` with its channels in the order `idx`. -/
structure Moved (o o' : Obj K V) (fp fp' : List Int) (idx : List Nat) : Prop where
  perm : idx.Perm (List.range o.freq.length)
  nblts : o'.nblts = o.nblts
  freq : o'.freq = fancy o.freq idx
  width : o'.width = fancy o.width idx
  flexId : o'.flexId = fancy o.flexId idx
  flexPol : o'.flexPol = some fp'
  labels : fp'.length = o'.spws.length
  nodup : o'.spws.Nodup
  spws : ∀ s, s ∈ o'.spws ↔ s ∈ o.spws
  pol : ∀ s ∈ o.spws, polOf o'.spws fp' s = polOf o.spws fp s
  data : ∀ b f, f < o.freq.length → o'.data b f 0 = o.data b ((idx[f]?).getD 0) 0

theorem moved_self {o : Obj K V} {fp : List Int} (v : Good o fp) : Moved o o fp fp (List.range o.freq.length) := by
  refine ⟨List.Perm.refl _, rfl, (fancy_range _).symm, ?_, ?_, v.flexPol, v.labels, v.spws, fun _ => Iff.rfl, fun _ _ => rfl, ?_⟩
  · rw [← v.width, fancy_range]
  · rw [← v.len, fancy_range]
  · intro b f hf
    rw [List.getElem?_range hf]; rfl

theorem moved_apply {o : Obj K V} {fp : List Int} (v : Good o fp) {idx : List Nat} (hp : idx.Perm (List.range o.freq.length)) :
    Moved o (applyOrder o fp idx) fp ((firsts (fancy o.flexId idx)).map (polOf o.spws fp)) idx := by
  have hm : ∀ s, s ∈ firsts (fancy o.flexId idx) ↔ s ∈ o.spws := by
    intro s
    rw [mem_firsts, (fancy_perm o.flexId idx (by rw [v.len]; exact hp)).mem_iff, v.ids]
  refine ⟨hp, rfl, rfl, rfl, rfl, rfl, by simp [applyOrder], firsts_nodup _, hm, ?_, fun _ _ _ => rfl⟩
  intro s hs
  have hs' := (hm s).2 hs
  have hi := List.idxOf_lt_length_iff.2 hs'
  show (((firsts (fancy o.flexId idx)).map (polOf o.spws fp))[(firsts (fancy o.flexId idx)).idxOf s]?).getD 0 = _
  rw [List.getElem?_map, List.getElem?_eq_getElem hi, List.getElem_idxOf hi]; rfl

section
variable {o o' : Obj K V} {fp fp' : List Int} {idx : List Nat}

theorem Moved.length (h : Moved o o' fp fp' idx) : o'.freq.length = o.freq.length := by
  rw [h.freq, fancy_length (perm_lt h.perm), h.perm.length_eq, List.length_range]

/-- Visibilities kept from the moved object are kept from the original one. -/
theorem Moved.kept (h : Moved o o' fp fp' idx) (v : Good o fp) {x : Obj K V} {τ : Nat → Nat → Nat} (k : Kept o' x τ) :
    Kept o x (fun f p => (idx[τ f p]?).getD 0) := by
  have hidl : idx.length = o.freq.length := by rw [h.perm.length_eq, List.length_range]
  have hlt : ∀ f < x.freq.length, ∀ p < x.pols.length, τ f p < idx.length := by
    intro f hf p hp; rw [hidl, ← h.length]; exact k.lt f hf p hp
  have hget : ∀ (f : Nat), f < x.freq.length → ∀ (p : Nat), p < x.pols.length → idx[τ f p]? = some ((idx[τ f p]?).getD 0) := by
    intro f hf p hp
    rw [List.getElem?_eq_getElem (hlt f hf p hp)]; rfl
  have hnd : idx.Nodup := h.perm.nodup_iff.2 List.nodup_range
  have hat : ∀ {α : Type} (xs : List α), xs.length = o.freq.length → ∀ (f : Nat), f < x.freq.length → ∀ (p : Nat), p < x.pols.length →
      (fancy xs idx)[τ f p]? = xs[(idx[τ f p]?).getD 0]? := by
    intro α xs hx f hf p hp
    rw [fancy_get (by rw [hx]; exact perm_lt h.perm), hget f hf p hp]; rfl
  refine ⟨k.nblts.trans h.nblts, k.flexPol, k.pols, k.width, k.ids, ?_, ?_, ?_, ?_, ?_⟩
  · intro f hf p hp
    exact perm_lt h.perm _ (List.mem_of_getElem? (hget f hf p hp))
  · intro f hf p hp f' hf' p' hp' he
    refine k.inj f hf p hp f' hf' p' hp' ?_
    have h1 := hget f hf p hp
    have h2 := hget f' hf' p' hp'
    rw [he, ← h2, List.getElem?_eq_getElem (hlt f hf p hp), List.getElem?_eq_getElem (hlt f' hf' p' hp')] at h1
    exact (List.Nodup.getElem_inj_iff hnd).1 (Option.some.inj h1)
  · intro t ht
    obtain ⟨i, hi, hie⟩ := List.mem_iff_getElem.1 (h.perm.mem_iff.2 (List.mem_range.2 ht))
    obtain ⟨f, hf, p, hp, hτ⟩ := k.surj i (by rw [h.length, ← hidl]; exact hi)
    exact ⟨f, hf, p, hp, by show (idx[τ f p]?).getD 0 = t; rw [hτ, List.getElem?_eq_getElem hi]; exact hie⟩
  · intro f hf p q hq
    have hp : p < x.pols.length := by
      by_contra hc; rw [List.getElem?_eq_none (by omega)] at hq; simp at hq
    obtain ⟨h1, h2, ⟨i, s, fp2, g1, g2, g3, g4⟩, h4⟩ := k.cell f hf p q hq
    refine ⟨?_, ?_, ?_, ?_⟩
    · rw [h1, h.freq, hat _ rfl f hf p hp]
    · rw [h2, h.width, hat _ v.width f hf p hp]
    · rw [h.flexPol] at g1
      obtain rfl := Option.some.inj g1
      rw [h.flexId, hat _ v.len f hf p hp] at g2
      have hs : s ∈ o.spws := (h.spws s).1 (List.mem_of_getElem? g3)
      have hpol := h.pol s hs
      have hi : i < o'.spws.length := by
        by_contra hc; rw [List.getElem?_eq_none (by omega)] at g3; simp at g3
      have hidx : o'.spws.idxOf s = i := by
        rw [List.getElem?_eq_getElem hi] at g3
        rw [← Option.some.inj g3, h.nodup.idxOf_getElem i hi]
      unfold polOf at hpol
      rw [hidx, g4] at hpol
      have hj := List.idxOf_lt_length_iff.2 hs
      refine ⟨o.spws.idxOf s, s, fp, v.flexPol, g2, ?_, ?_⟩
      · rw [List.getElem?_eq_getElem hj, List.getElem_idxOf hj]
      · have hj' : o.spws.idxOf s < fp.length := by rw [v.labels]; exact hj
        rw [List.getElem?_eq_getElem hj'] at hpol ⊢
        simpa using hpol.symm
    · intro b hb
      rw [h4 b (by rw [h.nblts]; exact hb), h.data b _ (by rw [← hidl]; exact hlt f hf p hp)]
  · intro f hf f' hf' p hp
    rw [k.windows f hf f' hf' p hp, h.flexId, hat _ v.len f hf p hp, hat _ v.len f' hf' p hp]

end

/-! ### The order asked for -/

/-- The window of a set with a polarization. -/
theorem pickPol_groups (sig : Int → List K × List K) (pol : Int → Int) (L : List Int)
    (hp : L.Pairwise (fun s t => ¬ (sig s = sig t ∧ pol s = pol t))) {t : Int} (ht : t ∈ L) :
    pickPol (mkSet sig pol L (sig t)) (pol t) = t := by
  unfold pickPol mkSet
  simp only
  have hz : ∀ l : List Int, l.zip (l.map pol) = l.map (fun x => (x, pol x)) := by
    intro l
    induction l with
    | nil => rfl
    | cons a l ih => simp [ih]
  rw [hz]
  cases hf : ((L.filter (fun s => decide (sig s = sig t))).map (fun x => (x, pol x))).find? (fun z => decide (z.2 = pol t)) with
  | none =>
    rw [List.find?_eq_none] at hf
    exact absurd (by simp) (hf (t, pol t) (List.mem_map.2 ⟨t, List.mem_filter.2 ⟨ht, by simp⟩, rfl⟩))
  | some z =>
    have h1 := List.find?_some hf
    obtain ⟨y, hy, rfl⟩ := List.mem_map.1 (List.mem_of_find?_eq_some hf)
    have hy' := List.mem_filter.1 hy
    simp only [decide_eq_true_eq] at h1 hy'
    exact pairwise_inj hp y hy'.1 t ht hy'.2 h1

theorem polOrder_perm (uniq : List Int) : (polOrder uniq).Perm uniq := by
  unfold polOrder
  split
  · exact List.perm_insertionSort _ _
  · exact List.Perm.refl _

/-- The windows in the order asked for. -/
def wanted (uniq : List Int) (sets : List (WinSet K)) : List Int := (polOrder uniq).flatMap (fun q => sets.map (fun w => pickPol w q))

theorem newOrder_eq (uniq : List Int) (sets : List (WinSet K)) (spws : List Int) :
    newOrder uniq sets spws = (wanted uniq sets).map (fun s => ((spws.idxOf s : Nat) : Int)) := by
  unfold newOrder wanted
  rw [List.map_flatMap]
  simp [List.map_map, Function.comp_def]

theorem wanted_perm (sig : Int → List K × List K) (pol : Int → Int) (L uniq : List Int) (hu : uniq.Nodup) (hn : L.Nodup)
    (hp : L.Pairwise (fun s t => ¬ (sig s = sig t ∧ pol s = pol t))) (hm : ∀ s ∈ L, pol s ∈ uniq)
    (hfull : ∀ s ∈ L, ∀ q ∈ uniq, ∃ t ∈ L, sig t = sig s ∧ pol t = q) : (wanted uniq (groups sig pol L)).Perm L := by
  have hpick : ∀ q ∈ uniq, ∀ g ∈ firsts (L.map sig), pickPol (mkSet sig pol L g) q ∈ L ∧ sig (pickPol (mkSet sig pol L g) q) = g ∧
      pol (pickPol (mkSet sig pol L g) q) = q := by
    intro q hq g hg
    obtain ⟨s, hs, rfl⟩ := List.mem_map.1 (mem_firsts.1 hg)
    obtain ⟨t, ht, h1, h2⟩ := hfull s hs q hq
    rw [← h1, ← h2, pickPol_groups sig pol L hp ht]
    exact ⟨ht, rfl, rfl⟩
  rw [List.perm_ext_iff_of_nodup _ hn]
  · intro s
    unfold wanted groups
    rw [List.mem_flatMap]
    constructor
    · rintro ⟨q, hq, hs⟩
      rw [List.map_map] at hs
      obtain ⟨g, hg, rfl⟩ := List.mem_map.1 hs
      exact (hpick q ((polOrder_perm uniq).mem_iff.1 hq) g hg).1
    · intro hs
      refine ⟨pol s, (polOrder_perm uniq).mem_iff.2 (hm s hs), ?_⟩
      rw [List.map_map]
      exact List.mem_map.2 ⟨sig s, mem_firsts.2 (List.mem_map_of_mem hs), pickPol_groups sig pol L hp hs⟩
  · unfold wanted groups
    rw [List.nodup_flatMap]
    constructor
    · intro q hq
      have hq' := (polOrder_perm uniq).mem_iff.1 hq
      rw [List.map_map, List.nodup_map_iff_inj_on (firsts_nodup _)]
      intro g hg g' hg' he
      have he' : pickPol (mkSet sig pol L g) q = pickPol (mkSet sig pol L g') q := he
      rw [← (hpick q hq' g hg).2.1, he', (hpick q hq' g' hg').2.1]
    · have hnd : (polOrder uniq).Nodup := (polOrder_perm uniq).nodup_iff.2 hu
      refine List.Pairwise.imp_of_mem ?_ hnd
      intro a b ha hb hab
      show List.Disjoint _ _
      intro s h1 h2
      beta_reduce at h1 h2
      rw [List.map_map] at h1 h2
      obtain ⟨g, hg, rfl⟩ := List.mem_map.1 h1
      obtain ⟨g', hg', he⟩ := List.mem_map.1 h2
      have he' : pickPol (mkSet sig pol L g') b = pickPol (mkSet sig pol L g) a := he
      apply hab
      rw [← (hpick a ((polOrder_perm uniq).mem_iff.1 ha) g hg).2.2, ← he', (hpick b ((polOrder_perm uniq).mem_iff.1 hb) g' hg').2.2]

/-! ### The sort succeeds -/

theorem sortFreq_ok (sI : Argsort Int) (sF : Argsort K) (freq : List K) (spws ids : List Int) (l : List Int) (rc rs : Bool) (hne : spws ≠ [])
    (hl : rs = true → l.Perm ((List.range spws.length).map (fun i : Nat => (i : Int)))) :
    ∃ r, sortFreq sI sF freq spws ids (if rs then .idx l else .none) (if rc then .str "freq".toList else .none) none = .ok r := by
  have hstage : ∀ st : St K, ∀ sel, ∃ r, channelStage sF spws sel (if rc then .str "freq".toList else .none) st = .ok r := by
    intro st sel
    cases rc with
    | true =>
      simp only [if_true, channelStage]
      rw [if_neg (by simp)]
      exact ⟨_, rfl⟩
    | false => exact ⟨_, rfl⟩
  have hco : ∀ l', (if rc then Order.str "freq".toList else Order.none) ≠ .idx l' := by intro l'; cases rc <;> simp
  generalize (if rc then Order.str "freq".toList else Order.none) = co at hstage hco
  unfold sortFreq
  by_cases h0 : (if rs then Order.idx l else Order.none) = .none ∧ co = .none
  · rw [if_pos h0]; exact ⟨_, rfl⟩
  · rw [if_neg h0]
    have goal : ∃ r, (if (if rs then Order.idx l else Order.none) = .none then channelStage sF spws (fun _ => co ≠ .none) co (start freq ids)
        else spwStage sI sF freq spws ids (if rs then Order.idx l else Order.none) >>= channelStage sF spws (fun _ => co ≠ .none) co) = .ok r := by
      cases rs with
      | false => rw [if_pos (by simp)]; exact hstage _ _
      | true =>
        rw [if_neg (by simp)]
        simp only [if_true]
        have hp := hl rfl
        have hip := isIndexPerm_iff.2 hp
        have hperm := fancy_perm spws (l.map Int.toNat) (isIndexPerm_spec hip).1
        have hne' : fancy spws (l.map Int.toNat) ≠ [] := by
          intro h; rw [h] at hperm; exact hne hperm.symm.eq_nil
        have hst : ∃ st, spwStage sI sF freq spws ids (.idx l) = .ok st := by
          have ho : spwOrder sI sF freq spws ids (.idx l) = .ok (l.map Int.toNat) := by
            show (if isIndexPerm l spws.length then _ else _) = _
            rw [if_pos hip]
          unfold spwStage
          rw [ho]
          simp only
          rw [if_neg hne']
          exact ⟨_, rfl⟩
        obtain ⟨st, hst⟩ := hst
        rw [hst]
        exact hstage _ _
    cases co with
    | idx l' => exact absurd rfl (hco l')
    | none => exact goal
    | str s => exact goal

theorem flatMap_replicate {α β : Type} (l : List α) (n : α → Nat) (b : β) : l.flatMap (fun a => List.replicate (n a) b) = List.replicate (l.map n).sum b := by
  induction l with
  | nil => rfl
  | cons a l ih => simp [ih, List.replicate_append_replicate]

/-- Windows in the order asked for: polarization slowest, sets in one order. -/
theorem wanted_blocks (sF : Argsort K) (o : Obj K V) (fp : List Int) (v : Good o fp)
    (hp : (firsts o.flexId).Pairwise (fun s t => ¬ (signature sF o.flexId o.freq o.width s = signature sF o.flexId o.freq o.width t ∧
      polOf o.spws fp s = polOf o.spws fp t)))
    (hfull : ∀ s ∈ firsts o.flexId, ∀ q ∈ unique fp, ∃ t ∈ firsts o.flexId,
      signature sF o.flexId o.freq o.width t = signature sF o.flexId o.freq o.width s ∧ polOf o.spws fp t = q)
    (ids : List Int) (hids : ids = (wanted (unique fp) (groups (signature sF o.flexId o.freq o.width) (polOf o.spws fp) (firsts o.flexId))).flatMap
      (fun s => List.replicate (o.flexId.count s) s)) :
    ∃ (P : List Int) (m : Nat) (A : List Int), P.Nodup ∧ 0 < m ∧ ids.map (polOf o.spws fp) = P.flatMap (List.replicate m) ∧
      (∀ q ∈ P, ofWin (ids.map (polOf o.spws fp))
        (ids.map (firstOf (groups (signature sF o.flexId o.freq o.width) (polOf o.spws fp) (firsts o.flexId)))) q = A) ∧
      ((groups (signature sF o.flexId o.freq o.width) (polOf o.spws fp) (firsts o.flexId)).map (fun w => w.freqs.length)).sum = m := by
  have hcount : ∀ s, (signature sF o.flexId o.freq o.width s).1.length = o.flexId.count s := by
    intro s; rw [signature_length, ofWin_length _ _ _ v.len]
  have hidne : o.flexId ≠ [] := by rw [← List.length_pos_iff, v.len]; exact List.length_pos_iff.2 v.chans
  generalize signature sF o.flexId o.freq o.width = sig at *
  generalize polOf o.spws fp = pol at *
  have hpick : ∀ q ∈ unique fp, ∀ g ∈ firsts ((firsts o.flexId).map sig), pickPol (mkSet sig pol (firsts o.flexId) g) q ∈ firsts o.flexId ∧
      sig (pickPol (mkSet sig pol (firsts o.flexId) g) q) = g ∧ pol (pickPol (mkSet sig pol (firsts o.flexId) g) q) = q := by
    intro q hq g hg
    obtain ⟨s, hs, rfl⟩ := List.mem_map.1 (mem_firsts.1 hg)
    obtain ⟨t, ht, h1, h2⟩ := hfull s hs q hq
    rw [← h1, ← h2, pickPol_groups sig pol _ hp ht]
    exact ⟨ht, rfl, rfl⟩
  have hun : (unique fp).Nodup := (unique_sorted fp).imp (fun h => ne_of_lt h)
  have hPn : (polOrder (unique fp)).Nodup := (polOrder_perm _).nodup_iff.2 hun
  have hPm : ∀ q ∈ polOrder (unique fp), q ∈ unique fp := fun q hq => (polOrder_perm _).mem_iff.1 hq
  have hids2 : ids = (polOrder (unique fp)).flatMap (fun q => (firsts ((firsts o.flexId).map sig)).flatMap (fun g =>
      List.replicate g.1.length (pickPol (mkSet sig pol (firsts o.flexId) g) q))) := by
    rw [hids]
    unfold wanted groups
    rw [List.flatMap_assoc]
    apply List.flatMap_congr
    intro q hq
    rw [List.map_map, List.flatMap_map]
    apply List.flatMap_congr
    intro g hg
    simp only [Function.comp_def]
    rw [← hcount, (hpick q (hPm q hq) g hg).2.1]
  have hsum : ((groups sig pol (firsts o.flexId)).map (fun w => w.freqs.length)).sum = ((firsts ((firsts o.flexId).map sig)).map (fun g => g.1.length)).sum := by
    unfold groups
    rw [List.map_map]; rfl
  have hpolmap : ids.map pol = (polOrder (unique fp)).flatMap (List.replicate ((firsts ((firsts o.flexId).map sig)).map (fun g => g.1.length)).sum) := by
    rw [hids2, List.map_flatMap]
    apply List.flatMap_congr
    intro q hq
    rw [List.map_flatMap, ← flatMap_replicate]
    apply List.flatMap_congr
    intro g hg
    rw [List.map_replicate, (hpick q (hPm q hq) g hg).2.2]
  have hfirstmap : ids.map (firstOf (groups sig pol (firsts o.flexId))) = (polOrder (unique fp)).flatMap (fun _ =>
      (firsts ((firsts o.flexId).map sig)).flatMap (fun g => List.replicate g.1.length
        (((firsts o.flexId).filter (fun t => decide (sig t = g))).head?.getD 0))) := by
    rw [hids2, List.map_flatMap]
    apply List.flatMap_congr
    intro q hq
    rw [List.map_flatMap]
    apply List.flatMap_congr
    intro g hg
    obtain ⟨k1, k2, k3⟩ := hpick q (hPm q hq) g hg
    obtain ⟨x, hx, hxf, _, _⟩ := firstOf_groups sig pol (firsts o.flexId) k1
    rw [List.map_replicate, hxf]
    rw [k2] at hx
    rw [hx]; rfl
  refine ⟨polOrder (unique fp), _, (firsts ((firsts o.flexId).map sig)).flatMap (fun g => List.replicate g.1.length
        (((firsts o.flexId).filter (fun t => decide (sig t = g))).head?.getD 0)), hPn, ?_, hpolmap, ?_, hsum⟩
  · obtain ⟨s, hs⟩ := List.exists_mem_of_ne_nil _ hidne
    have hmem : (sig s).1.length ∈ (firsts ((firsts o.flexId).map sig)).map (fun g => g.1.length) :=
      List.mem_map_of_mem (f := fun g : List K × List K => g.1.length) (mem_firsts.2 (List.mem_map_of_mem (mem_firsts.2 hs)))
    exact List.sum_pos_iff_exists_pos_nat.2 ⟨_, hmem, by rw [hcount]; exact List.count_pos_iff.2 hs⟩
  · intro q hq
    rw [hpolmap, hfirstmap]
    refine ofWin_blocks _ _ ?_ q _ hPn hq
    rw [List.length_flatMap]
    simp

/-- What is known after sorting. -/
theorem moved_ready (sI : Argsort Int) (sF : Argsort K) (o : Obj K V) (fp : List Int) (v : Good o fp)
    (hd : ∀ s ∈ o.spws, (ofWin o.flexId o.freq s).Nodup)
    (hp : (firsts o.flexId).Pairwise (fun s t => ¬ (signature sF o.flexId o.freq o.width s = signature sF o.flexId o.freq o.width t ∧
      polOf o.spws fp s = polOf o.spws fp t)))
    (hall : (groups (signature sF o.flexId o.freq o.width) (polOf o.spws fp) (firsts o.flexId)).all
      (fun w => decide (w.spws.length = (unique fp).length)) = true) (rc rs : Bool)
    (hrc : needsChannelOrder o.flexId o.freq o.width (groups (signature sF o.flexId o.freq o.width) (polOf o.spws fp) (firsts o.flexId)) = rc)
    (hrs : needsSpwOrder (unique fp) (o.flexId.map (polOf o.spws fp))
      (o.flexId.map (firstOf (groups (signature sF o.flexId o.freq o.width) (polOf o.spws fp) (firsts o.flexId)))) = rs) :
    ∃ o' fp' idx P m A, reorderFlex sI sF (unique fp) (groups (signature sF o.flexId o.freq o.width) (polOf o.spws fp) (firsts o.flexId)) rc rs o = some o' ∧
      Moved o o' fp fp' idx ∧
      Ready o' (polOf o.spws fp) (firstOf (groups (signature sF o.flexId o.freq o.width) (polOf o.spws fp) (firsts o.flexId))) P m A ∧
      ((groups (signature sF o.flexId o.freq o.width) (polOf o.spws fp) (firsts o.flexId)).map (fun w => w.freqs.length)).sum = m := by
  have hun : (unique fp).Nodup := (unique_sorted fp).imp (fun h => ne_of_lt h)
  have hidne : o.flexId ≠ [] := by rw [← List.length_pos_iff, v.len]; exact List.length_pos_iff.2 v.chans
  obtain ⟨s0, hs0⟩ := List.exists_mem_of_ne_nil _ hidne
  have hspne : o.spws ≠ [] := List.ne_nil_of_mem ((v.ids s0).1 hs0)
  have hmem : ∀ s ∈ firsts o.flexId, polOf o.spws fp s ∈ unique fp := fun s hs =>
    mem_unique.2 ((v.fp_iff _).2 ⟨s, (v.ids s).1 (mem_firsts.1 hs), rfl⟩)
  have hfull := fun s (hs : s ∈ firsts o.flexId) q (hq : q ∈ unique fp) =>
    full_sets _ _ _ _ (firsts_nodup _) hp hmem hall hs hq
  have hL : (firsts o.flexId).Perm o.spws := by
    rw [List.perm_ext_iff_of_nodup (firsts_nodup _) v.spws]
    intro s; rw [mem_firsts, v.ids]
  have hwp := (wanted_perm _ _ _ _ hun (firsts_nodup _) hp hmem hfull).trans hL
  have hvalid : FreqSort.Valid o.freq o.spws o.flexId := ⟨v.len, v.spws, fun w hw => (v.ids w).1 hw, fun w hw => (v.ids w).2 hw, hspne⟩
  have hnew : (newOrder (unique fp) (groups (signature sF o.flexId o.freq o.width) (polOf o.spws fp) (firsts o.flexId)) o.spws).Perm
      ((List.range o.spws.length).map (fun i : Nat => (i : Int))) := by
    rw [newOrder_eq]
    refine (hwp.map _).trans ?_
    have e : o.spws.map (fun s => ((o.spws.idxOf s : Nat) : Int)) = (List.range o.spws.length).map (fun i : Nat => (i : Int)) := by
      apply List.ext_getElem
      · simp
      · intro i h1 h2
        rw [List.length_map] at h1
        simp [v.spws.idxOf_getElem i h1]
    rw [e]
  obtain ⟨r, hr⟩ := sortFreq_ok sI sF o.freq o.spws o.flexId _ rc rs hspne (fun _ => hnew)
  -- what the sort gives
  have hfacts : (arrangement o.freq.length r).Perm (List.range o.freq.length) ∧
      (rs = true → fancy o.flexId (arrangement o.freq.length r) =
        (wanted (unique fp) (groups (signature sF o.flexId o.freq o.width) (polOf o.spws fp) (firsts o.flexId))).flatMap
          (fun s => List.replicate (o.flexId.count s) s)) ∧
      (rs = false → fancy o.flexId (arrangement o.freq.length r) = o.flexId) ∧
      (rc = true → ∀ s ∈ o.spws, (chans o.flexId s (arrangement o.freq.length r)).Pairwise (FreqLe o.freq)) ∧
      (rc = false → ∀ s ∈ o.spws, chans o.flexId s (arrangement o.freq.length r) = chans o.flexId s (List.range o.flexId.length)) := by
    have hsome : Function.Injective (List.map (some : Int → Option Int)) := List.map_injective_iff.2 (Option.some_injective _)
    have hlt : ∀ {idx : List Nat}, idx.Perm (List.range o.freq.length) → ∀ i ∈ idx, i < o.flexId.length := by
      intro idx h i hi; rw [v.len]; exact perm_lt h i hi
    cases rs with
    | true =>
      simp only [if_true] at hr
      obtain ⟨f1, ⟨ord, ⟨_, ho, _⟩, f2⟩, f3, f4⟩ := sort_freq_windows sI sF o.freq o.spws o.flexId _ _ r hvalid (by simp) (by intro l; cases rc <;> simp) hr
      refine ⟨f1, fun _ => ?_, fun h => by simp at h, ?_, ?_⟩
      · have hord : ord = wanted (unique fp) (groups (signature sF o.flexId o.freq o.width) (polOf o.spws fp) (firsts o.flexId)) := by
          apply hsome
          rw [ho _ rfl, newOrder_eq, List.map_map]
          apply List.map_congr_left
          intro s hs
          have hi := List.idxOf_lt_length_iff.2 (hwp.mem_iff.1 hs)
          simp only [Function.comp_def, Int.toNat_natCast]
          rw [List.getElem?_eq_getElem hi, List.getElem_idxOf hi]
        apply hsome
        rw [fancy_map _ _ (hlt f1), f2, hord, List.map_flatMap]
        simp
      · rintro rfl s hs
        exact (f3 s hs).1 rfl
      · rintro rfl s hs
        refine strictSorted_ext (f4 rfl s hs) (List.Pairwise.filter _ List.pairwise_lt_range) (fun i => ?_)
        unfold chans
        rw [v.len]
        exact (f1.filter _).mem_iff
    | false =>
      cases rc with
      | true =>
        simp only [if_true, Bool.false_eq_true, if_false] at hr
        obtain ⟨f1, f2, f3, _⟩ := sort_freq_channels sI sF o.freq o.spws o.flexId _ _ none r hvalid (by simp) (by simp) (Or.inl rfl) hr
        refine ⟨f1, fun h => by simp at h, fun _ => ?_, ?_, fun h => by simp at h⟩
        · apply hsome
          rw [fancy_map _ _ (hlt f1), f2]
        · intro _ s hs
          exact (f3 s hs (by simp)).1 rfl
      | false =>
        simp only [Bool.false_eq_true, if_false] at hr
        rw [sort_freq_noop sI sF o.freq o.spws o.flexId .none none (Or.inl rfl)] at hr
        obtain rfl := Except.ok.inj hr
        refine ⟨List.Perm.refl _, fun h => by simp at h, fun _ => ?_, fun h => by simp at h, fun _ s _ => ?_⟩
        · show fancy o.flexId (List.range o.freq.length) = o.flexId
          rw [← v.len, fancy_range]
        · show chans o.flexId s (List.range o.freq.length) = _
          rw [v.len]
  obtain ⟨f1, f2, f3, f4, f5⟩ := hfacts
  generalize hidx : arrangement o.freq.length r = idx at f1 f2 f3 f4 f5
  obtain ⟨o', fp', ho', hmv⟩ : ∃ o' fp', reorderFlex sI sF (unique fp)
      (groups (signature sF o.flexId o.freq o.width) (polOf o.spws fp) (firsts o.flexId)) rc rs o = some o' ∧ Moved o o' fp fp' idx := by
    unfold reorderFlex
    rw [hr]
    cases r with
    | none => exact ⟨o, fp, rfl, by rw [← hidx]; exact moved_self v⟩
    | some i =>
      have hi : i = idx := hidx
      subst hi
      exact ⟨_, _, by simp only [v.flexPol, Option.getD_some], moved_apply v f1⟩
  have hblocks : ∃ (P : List Int) (m : Nat) (A : List Int), P.Nodup ∧ 0 < m ∧ (fancy o.flexId idx).map (polOf o.spws fp) = P.flatMap (List.replicate m) ∧
      (∀ q ∈ P, ofWin ((fancy o.flexId idx).map (polOf o.spws fp))
        ((fancy o.flexId idx).map (firstOf (groups (signature sF o.flexId o.freq o.width) (polOf o.spws fp) (firsts o.flexId)))) q = A) ∧
      ((groups (signature sF o.flexId o.freq o.width) (polOf o.spws fp) (firsts o.flexId)).map (fun w => w.freqs.length)).sum = m := by
    cases rs with
    | true => exact wanted_blocks sF o fp v hp hfull _ (f2 rfl)
    | false =>
      rw [f3 rfl]
      exact spwOrder_blocks sF o fp v hp hall hrs
  obtain ⟨P, m, A, hP, hm, hb, ho, hs⟩ := hblocks
  have hltids : ∀ i ∈ idx, i < o.flexId.length := by intro i hi; rw [v.len]; exact perm_lt f1 i hi
  have hmemids : ∀ s ∈ o'.flexId, s ∈ o.flexId := by
    intro s hs
    rw [hmv.flexId] at hs
    exact (fancy_perm o.flexId idx (by rw [v.len]; exact f1)).mem_iff.1 hs
  have hiff := fun s (hs : s ∈ o.flexId) t (ht : t ∈ o.flexId) =>
    firstOf_eq_iff (signature sF o.flexId o.freq o.width) (polOf o.spws fp) (firsts o.flexId) (mem_firsts.2 hs) (mem_firsts.2 ht)
  have hwin : ∀ s ∈ o.flexId, ∀ t ∈ o.flexId, signature sF o.flexId o.freq o.width s = signature sF o.flexId o.freq o.width t →
      ofWin o'.flexId o'.freq s = ofWin o'.flexId o'.freq t ∧ ofWin o'.flexId o'.width s = ofWin o'.flexId o'.width t := by
    intro s hs t ht hsig
    rw [hmv.flexId, hmv.freq, hmv.width, ofWin_fancy _ _ v.len _ _ hltids, ofWin_fancy _ _ v.len _ _ hltids,
      ofWin_fancy _ _ (v.len.trans v.width.symm) _ _ hltids, ofWin_fancy _ _ (v.len.trans v.width.symm) _ _ hltids]
    have hss := (v.ids s).1 hs
    have hts := (v.ids t).1 ht
    cases rc with
    | true =>
      exact sorted_same sF o.flexId o.freq o.width v.len (v.len.trans v.width.symm) idx f1 hsig (f4 rfl s hss) (f4 rfl t hts) (hd s hss)
    | false =>
      rw [f5 rfl s hss, f5 rfl t hts, ← ofWin_chans _ _ v.len, ← ofWin_chans _ _ v.len, ← ofWin_chans _ _ (v.len.trans v.width.symm),
        ← ofWin_chans _ _ (v.len.trans v.width.symm)]
      exact same_window sF o _ hrc hs ht hsig
  refine ⟨o', fp', idx, P, m, A, ho', hmv, ⟨hP, hm, ?_, ?_, by rw [hmv.flexId]; exact hb, by rw [hmv.flexId]; exact ho, ?_, ?_, ?_⟩, hs⟩
  · rw [hmv.flexId, hmv.freq, fancy_length hltids, fancy_length (perm_lt f1)]
  · rw [hmv.width, hmv.freq, fancy_length (by rw [v.width]; exact perm_lt f1), fancy_length (perm_lt f1)]
  · intro s hs t ht he
    exact (hwin s (hmemids s hs) t (hmemids t ht) ((hiff s (hmemids s hs) t (hmemids t ht)).1 he)).1
  · intro s hs t ht he
    exact (hwin s (hmemids s hs) t (hmemids t ht) ((hiff s (hmemids s hs) t (hmemids t ht)).1 he)).2
  · intro s hs t ht he hpol
    exact pairwise_inj hp s (mem_firsts.2 (hmemids s hs)) t (mem_firsts.2 (hmemids t ht)) ((hiff s (hmemids s hs) t (hmemids t ht)).1 he) hpol

end Verif.FlexPol
