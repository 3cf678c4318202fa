import Verif.FlexPol.Props

/-! Conversion to one polarization per window and back. -/
namespace Verif.FlexPol
open Verif.Np Verif.FreqSort

set_option linter.unusedSectionVars false

variable {K V : Type} [LinearOrder K]

theorem polOf_mem (ws : List (Int × Int)) (hn : (ws.map Prod.fst).Nodup) {w q : Int} (h : (w, q) ∈ ws) :
    polOf (ws.map Prod.fst) (ws.map Prod.snd) w = q := by
  obtain ⟨i, hi, he⟩ := List.mem_iff_getElem.1 h
  have h1 : (ws.map Prod.fst)[i]'(by simpa using hi) = w := by rw [List.getElem_map, he]
  unfold polOf
  rw [← h1, hn.idxOf_getElem i (by simpa using hi), List.getElem?_map, List.getElem?_eq_getElem hi, he]
  rfl

/-- Facts about a converted object that the way back uses. -/
structure Conv (o r : Obj K V) (W : Nat → Int → Int) (fp : List Int) : Prop where
  zero : ∀ s, W 0 s = s
  inj : ∀ p < o.pols.length, ∀ q < o.pols.length, ∀ s ∈ o.spws, ∀ t ∈ o.spws, W p s = W q t → p = q ∧ s = t
  nblts : r.nblts = o.nblts
  flexId : r.flexId = (List.range o.pols.length).flatMap (fun p => o.flexId.map (W p))
  freq : r.freq = (List.replicate o.pols.length o.freq).flatten
  width : r.width = (List.replicate o.pols.length o.width).flatten
  data : ∀ b < o.nblts, ∀ f < o.freq.length, ∀ p < o.pols.length, r.data b (f + o.freq.length * p) 0 = o.data b f p
  flexPol : r.flexPol = some fp
  pol : ∀ p < o.pols.length, ∀ s ∈ o.spws, polOf r.spws fp (W p s) = (o.pols[p]?).getD 0
  labels : ∀ q, q ∈ fp ↔ q ∈ o.pols ∧ o.spws ≠ []
  count : r.spws.length = o.pols.length * o.spws.length
  spws : ∀ w, w ∈ r.spws ↔ ∃ p < o.pols.length, ∃ s ∈ o.spws, w = W p s
  nodup : r.spws.Nodup

theorem mem_getD {l : List Int} {q : Int} : q ∈ l ↔ ∃ p < l.length, (l[p]?).getD 0 = q := by
  rw [List.mem_iff_getElem]
  constructor
  · rintro ⟨i, hi, rfl⟩; exact ⟨i, hi, by simp [hi]⟩
  · rintro ⟨i, hi, rfl⟩; exact ⟨i, hi, by simp [hi]⟩

theorem convert_conv (fresh : List Int → Int) (hfresh : ∀ l, fresh l ∉ l) (o : Obj K V) (v : Valid o) (hn : o.flexPol = none) :
    ∃ W r fp, convert fresh o = some r ∧ Conv o r W fp := by
  obtain ⟨W, r, hr, h0, hinj, hnb, hpol, hid, hfreq, hwid, hdata, hnd, ws, hspws, hflex, hws⟩ := convert_eq fresh hfresh o v hn
  refine ⟨W, r, _, hr, h0, hinj, hnb, hid, hfreq, hwid, ?_, hflex, ?_, ?_, ?_, ?_, hnd⟩
  · intro b hb f hf p hp
    rw [hdata]; exact reshapeF_flat _ _ _ _ hb hf
  · intro p hp s hs
    rw [hspws]
    refine polOf_mem ws (hspws ▸ hnd) (hws.mem_iff.2 ?_)
    simp only [List.mem_flatMap, List.mem_range, List.mem_map]
    exact ⟨p, hp, s, hs, rfl⟩
  · intro q
    rw [List.mem_map]
    constructor
    · rintro ⟨x, hx, rfl⟩
      rw [hws.mem_iff] at hx
      simp only [List.mem_flatMap, List.mem_range, List.mem_map] at hx
      obtain ⟨p, hp, s, hs, rfl⟩ := hx
      exact ⟨mem_getD.2 ⟨p, hp, rfl⟩, List.ne_nil_of_mem hs⟩
    · rintro ⟨hq, hs⟩
      obtain ⟨p, hp, rfl⟩ := mem_getD.1 hq
      obtain ⟨s, hs⟩ := List.exists_mem_of_ne_nil _ hs
      refine ⟨(W p s, (o.pols[p]?).getD 0), hws.mem_iff.2 ?_, rfl⟩
      simp only [List.mem_flatMap, List.mem_range, List.mem_map]
      exact ⟨p, hp, s, hs, rfl⟩
  · rw [hspws, List.length_map, hws.length_eq, List.length_flatMap]; simp
  · intro w
    rw [hspws, List.mem_map]
    constructor
    · rintro ⟨x, hx, rfl⟩
      rw [hws.mem_iff] at hx
      simp only [List.mem_flatMap, List.mem_range, List.mem_map] at hx
      obtain ⟨p, hp, s, hs, rfl⟩ := hx
      exact ⟨p, hp, s, hs, rfl⟩
    · rintro ⟨p, hp, s, hs, rfl⟩
      refine ⟨(W p s, (o.pols[p]?).getD 0), hws.mem_iff.2 ?_, rfl⟩
      simp only [List.mem_flatMap, List.mem_range, List.mem_map]
      exact ⟨p, hp, s, hs, rfl⟩

section
variable {o r : Obj K V} {W : Nat → Int → Int} {fp : List Int}

theorem Conv.injIds (v : Valid o) (c : Conv o r W fp) : ∀ p < o.pols.length, ∀ q < o.pols.length, ∀ s ∈ o.flexId, ∀ t ∈ o.flexId,
    W p s = W q t → p = q ∧ s = t :=
  fun p hp q hq s hs t ht h => c.inj p hp q hq s ((v.ids s).1 hs) t ((v.ids t).1 ht) h

theorem Conv.window (v : Valid o) (c : Conv o r W fp) {p : Nat} (hp : p < o.pols.length) {s : Int} (hs : s ∈ o.flexId) :
    ofWin r.flexId r.freq (W p s) = ofWin o.flexId o.freq s ∧ ofWin r.flexId r.width (W p s) = ofWin o.flexId o.width s := by
  rw [c.flexId, c.freq, c.width]
  exact ⟨ofWin_flatMap _ _ v.len W s hs p _ (c.injIds v) hp, ofWin_flatMap _ _ (by rw [v.len, v.width]) W s hs p _ (c.injIds v) hp⟩

theorem Conv.sig (v : Valid o) (c : Conv o r W fp) (sF : Argsort K) {p : Nat} (hp : p < o.pols.length) {s : Int} (hs : s ∈ o.flexId) :
    signature sF r.flexId r.freq r.width (W p s) = signature sF o.flexId o.freq o.width s := by
  unfold signature
  rw [(c.window v hp hs).1, (c.window v hp hs).2]

theorem Conv.firsts (v : Valid o) (c : Conv o r W fp) :
    firsts r.flexId = (List.range o.pols.length).flatMap (fun p => (FlexPol.firsts o.flexId).map (W p)) := by
  rw [c.flexId]; exact firsts_flatMap _ _ _ (c.injIds v)

theorem Conv.nodupL (v : Valid o) (c : Conv o r W fp) : ((List.range o.pols.length).flatMap (fun p => (FlexPol.firsts o.flexId).map (W p))).Nodup := by
  rw [← c.firsts v]; exact firsts_nodup _

theorem getD_inj {l : List Int} (hn : l.Nodup) {p q : Nat} (hp : p < l.length) (hq : q < l.length) (h : (l[p]?).getD 0 = (l[q]?).getD 0) : p = q := by
  rw [List.getElem?_eq_getElem hp, List.getElem?_eq_getElem hq] at h
  exact (List.Nodup.getElem_inj_iff hn).1 (by simpa using h)

/-- The sets of windows found on the way back. -/
theorem Conv.sets (v : Valid o) (c : Conv o r W fp) (sF : Argsort K)
    (hdiff : ∀ s ∈ o.spws, ∀ t ∈ o.spws, signature sF o.flexId o.freq o.width s = signature sF o.flexId o.freq o.width t → s = t) :
    (FlexPol.firsts r.flexId).foldlM (setStep (signature sF r.flexId r.freq r.width) (polOf r.spws fp)) [] =
      .ok ((FlexPol.firsts o.flexId).map (fun s => ⟨(signature sF o.flexId o.freq o.width s).1, (signature sF o.flexId o.freq o.width s).2,
        (List.range o.pols.length).map (fun p => W p s), o.pols⟩)) := by
  have hmem : ∀ s ∈ FlexPol.firsts o.flexId, s ∈ o.flexId ∧ s ∈ o.spws := fun s hs => ⟨mem_firsts.1 hs, (v.ids s).1 (mem_firsts.1 hs)⟩
  have hsig : ∀ p < o.pols.length, ∀ s ∈ FlexPol.firsts o.flexId, signature sF r.flexId r.freq r.width (W p s) = signature sF o.flexId o.freq o.width s :=
    fun p hp s hs => c.sig v sF hp (hmem s hs).1
  have hpol : ∀ p < o.pols.length, ∀ s ∈ FlexPol.firsts o.flexId, polOf r.spws fp (W p s) = (o.pols[p]?).getD 0 :=
    fun p hp s hs => c.pol p hp s (hmem s hs).2
  rw [c.firsts v, foldlM_groups_ok]
  · rw [groups_blocks _ _ W _ (firsts_nodup _) (signature sF o.flexId o.freq o.width) o.pols (List.length_pos_iff.2 v.some_pol) hsig
      (fun s hs t ht => hdiff s (hmem s hs).2 t (hmem t ht).2) hpol]
  · refine List.Pairwise.imp_of_mem ?_ (c.nodupL v)
    intro a b ha hb hab ⟨h1, h2⟩
    simp only [List.mem_flatMap, List.mem_range, List.mem_map] at ha hb
    obtain ⟨p, hp, s, hs, rfl⟩ := ha
    obtain ⟨q, hq, t, ht, rfl⟩ := hb
    rw [hsig p hp s hs, hsig q hq t ht] at h1
    rw [hpol p hp s hs, hpol q hq t ht] at h2
    exact hab (by rw [hdiff s (hmem s hs).2 t (hmem t ht).2 h1, getD_inj v.pols hp hq h2])

theorem Conv.uniq (v : Valid o) (c : Conv o r W fp) (hs : o.spws ≠ []) : (unique fp).length = o.pols.length ∧ ∀ q, q ∈ unique fp ↔ q ∈ o.pols := by
  have hm : ∀ q, q ∈ unique fp ↔ q ∈ o.pols := fun q => by rw [mem_unique, c.labels q]; simp [hs]
  have hn : (unique fp).Nodup := (unique_sorted fp).imp (fun h => ne_of_lt h)
  exact ⟨((List.perm_ext_iff_of_nodup hn v.pols).2 hm).length_eq, hm⟩

theorem Conv.firstOf (v : Valid o) (c : Conv o r W fp) (g : Int → List K × List K) {p : Nat} (hp : p < o.pols.length) {s : Int} (hs : s ∈ o.flexId) :
    firstOf ((FlexPol.firsts o.flexId).map (fun s => (⟨(g s).1, (g s).2, (List.range o.pols.length).map (fun p => W p s), o.pols⟩ : WinSet K))) (W p s) = s := by
  have hpos : 0 < o.pols.length := by omega
  unfold FlexPol.firstOf
  cases hf : ((FlexPol.firsts o.flexId).map (fun s => (⟨(g s).1, (g s).2, (List.range o.pols.length).map (fun p => W p s), o.pols⟩ : WinSet K))).find?
      (fun w => w.spws.contains (W p s)) with
  | none =>
    rw [List.find?_eq_none] at hf
    exfalso
    refine hf _ (List.mem_map_of_mem (mem_firsts.2 hs)) ?_
    simp only [List.contains_iff_mem, List.mem_map, List.mem_range]
    exact ⟨p, hp, rfl⟩
  | some w =>
    have hw := List.mem_of_find?_eq_some hf
    have hc := List.find?_some hf
    obtain ⟨t, ht, rfl⟩ := List.mem_map.1 hw
    simp only [List.contains_iff_mem, List.mem_map, List.mem_range] at hc
    obtain ⟨q, hq, he⟩ := hc
    have := (c.injIds v q hq p hp t (mem_firsts.1 ht) s hs he).2
    subst this
    simp only [Option.bind_some]
    rw [range_cons hpos]
    simp [c.zero]

/-- Labels of the channels on the way back. -/
theorem Conv.firstArr (v : Valid o) (c : Conv o r W fp) (g : Int → List K × List K) :
    r.flexId.map (FlexPol.firstOf ((FlexPol.firsts o.flexId).map
      (fun s => (⟨(g s).1, (g s).2, (List.range o.pols.length).map (fun p => W p s), o.pols⟩ : WinSet K)))) = o.pols.flatMap (fun _ => o.flexId) := by
  rw [c.flexId, List.map_flatMap]
  have e : o.pols.flatMap (fun _ => o.flexId) = (List.range o.pols.length).flatMap (fun _ => o.flexId) := by
    conv_lhs => rw [show o.pols = (List.range o.pols.length).map (fun p => (o.pols[p]?).getD 0) from by
      have := range_getD_map (fun x => x) o.pols; rw [List.map_id'] at this; exact this.symm]
    rw [List.flatMap_map]
  rw [e]
  apply List.flatMap_congr
  intro p hp
  rw [List.map_map]
  conv_rhs => rw [← List.map_id o.flexId]
  exact List.map_congr_left (fun s hs => c.firstOf v g (List.mem_range.1 hp) hs)

theorem Conv.polArr (v : Valid o) (c : Conv o r W fp) : r.flexId.map (polOf r.spws fp) = o.pols.flatMap (List.replicate o.flexId.length) := by
  rw [c.flexId, List.map_flatMap]
  have e : o.pols.flatMap (List.replicate o.flexId.length) =
      (List.range o.pols.length).flatMap (fun p => List.replicate o.flexId.length ((o.pols[p]?).getD 0)) := by
    conv_lhs => rw [show o.pols = (List.range o.pols.length).map (fun p => (o.pols[p]?).getD 0) from by
      have := range_getD_map (fun x => x) o.pols; rw [List.map_id'] at this; exact this.symm]
    rw [List.flatMap_map]
  rw [e]
  apply List.flatMap_congr
  intro p hp
  rw [List.map_map, ← List.map_const']
  exact List.map_congr_left (fun s hs => c.pol p (List.mem_range.1 hp) s ((v.ids s).1 hs))

theorem Conv.channelOrder (v : Valid o) (c : Conv o r W fp) (g : Int → List K × List K) :
    needsChannelOrder r.flexId r.freq r.width ((FlexPol.firsts o.flexId).map
      (fun s => (⟨(g s).1, (g s).2, (List.range o.pols.length).map (fun p => W p s), o.pols⟩ : WinSet K))) = false := by
  have hpos : 0 < o.pols.length := List.length_pos_iff.2 v.some_pol
  unfold needsChannelOrder
  rw [List.any_eq_false]
  intro w hw
  obtain ⟨s, hs, rfl⟩ := List.mem_map.1 hw
  have hs' := mem_firsts.1 hs
  have hhead : ((List.range o.pols.length).map (fun p => W p s)).headD 0 = W 0 s := by rw [range_cons hpos]; rfl
  rw [Bool.not_eq_true, List.any_eq_false]
  intro x hx
  have hx' := List.mem_of_mem_tail hx
  simp only [List.mem_map, List.mem_range] at hx'
  obtain ⟨p, hp, rfl⟩ := hx'
  simp only [hhead, (c.window v hp hs').1, (c.window v hp hs').2, (c.window v hpos hs').1, (c.window v hpos hs').2]
  simp

theorem Conv.spwOrder (v : Valid o) (c : Conv o r W fp) (hs : o.flexId ≠ []) :
    needsSpwOrder (unique fp) (o.pols.flatMap (List.replicate o.flexId.length)) (o.pols.flatMap (fun _ => o.flexId)) = false := by
  have hpos : 0 < o.flexId.length := List.length_pos_iff.2 hs
  have hspw : o.spws ≠ [] := by
    obtain ⟨s, h⟩ := List.exists_mem_of_ne_nil _ hs
    exact List.ne_nil_of_mem ((v.ids s).1 h)
  obtain ⟨hl, hm⟩ := c.uniq v hspw
  have hwin : ∀ q ∈ unique fp, ofWin (o.pols.flatMap (List.replicate o.flexId.length)) (o.pols.flatMap (fun _ => o.flexId)) q = o.flexId :=
    fun q hq => ofWin_blocks o.flexId _ rfl q o.pols v.pols ((hm q).1 hq)
  unfold needsSpwOrder
  rw [steps_blocks _ hpos _ v.pols, hl]
  simp only [ne_eq, not_true, decide_false, Bool.false_or]
  rw [List.any_eq_false]
  intro q hq
  have hne : unique fp ≠ [] := by intro h; rw [h] at hq; simp at hq
  rw [hwin q (List.mem_of_mem_tail hq), hwin _ (by
    cases h : unique fp with
    | nil => exact absurd h hne
    | cons a b => simp)]
  simp

end

/-- What two objects have in common when one is as good as the other. -/
structure SameData (o x : Obj K V) : Prop where
  nblts : x.nblts = o.nblts
  freq : x.freq = o.freq
  width : x.width = o.width
  flexId : x.flexId = o.flexId
  spws : x.spws.Perm o.spws
  pols : x.pols = o.pols
  flexPol : x.flexPol = o.flexPol
  data : ∀ b < o.nblts, ∀ f < o.freq.length, ∀ p < o.pols.length, x.data b f p = o.data b f p

/-- Several polarizations. -/
theorem round_many (sF : Argsort K) (reorder : Reorder K V) (blank : V) {o r : Obj K V} {W : Nat → Int → Int} {fp : List Int}
    (v : Valid o) (hn : o.flexPol = none) (hne : o.freq ≠ []) (hmany : 1 < o.pols.length) (c : Conv o r W fp)
    (hdiff : ∀ s ∈ o.spws, ∀ t ∈ o.spws, signature sF o.flexId o.freq o.width s = signature sF o.flexId o.freq o.width t → s = t) :
    ∃ x, remove sF reorder blank true r = some x ∧ SameData o x := by
  have hidne : o.flexId ≠ [] := by
    rw [← List.length_pos_iff, v.len]; exact List.length_pos_iff.2 hne
  have hspw : o.spws ≠ [] := by
    obtain ⟨s, h⟩ := List.exists_mem_of_ne_nil _ hidne
    exact List.ne_nil_of_mem ((v.ids s).1 h)
  have hpos : 0 < o.pols.length := by omega
  have hsl : 0 < o.spws.length := List.length_pos_iff.2 hspw
  obtain ⟨hl, hm⟩ := c.uniq v hspw
  have hsets := c.sets v sF hdiff
  have hcount : r.spws.length ≠ 1 := by
    rw [c.count]
    have : 2 * 1 ≤ o.pols.length * o.spws.length := Nat.mul_le_mul hmany hsl
    omega
  refine ⟨finishCombine r fp ((FlexPol.firsts o.flexId).map (fun s => ⟨(signature sF o.flexId o.freq o.width s).1,
    (signature sF o.flexId o.freq o.width s).2, (List.range o.pols.length).map (fun p => W p s), o.pols⟩)), ?_, ?_⟩
  · unfold remove
    rw [c.flexPol]
    simp only
    rw [if_neg (by rw [hl]; omega), if_pos trivial, hsets]
    simp only
    rw [c.channelOrder v, c.firstArr v, c.polArr v, c.spwOrder v hidne, if_pos]
    · simp only [Bool.or_self, Bool.false_eq_true, if_false, Option.map_some]
      rw [c.flexPol]; rfl
    · rw [List.all_eq_true]
      intro w hw
      obtain ⟨s, hs, rfl⟩ := List.mem_map.1 hw
      simp [hl]
  · have hnf : (((FlexPol.firsts o.flexId).map (fun s => (⟨(signature sF o.flexId o.freq o.width s).1,
        (signature sF o.flexId o.freq o.width s).2, (List.range o.pols.length).map (fun p => W p s), o.pols⟩ : WinSet K))).map
        (fun w => w.freqs.length)).sum = o.freq.length := by
      rw [List.map_map, ← v.len, ← ofWin_sum o.flexId o.freq v.len _ (firsts_nodup o.flexId) (fun s => mem_firsts)]
      congr 1
      exact List.map_congr_left (fun s _ => signature_length sF o.flexId o.freq o.width s)
    have hrl : r.freq.length = o.freq.length * o.pols.length := by rw [c.freq]; simp [Nat.mul_comm]
    have hrep : o.pols.flatMap (fun _ => o.flexId) = (List.range o.pols.length).flatMap (fun _ => o.flexId) := by
      conv_lhs => rw [show o.pols = (List.range o.pols.length).map (fun p => (o.pols[p]?).getD 0) from by
        have := range_getD_map (fun x => x) o.pols; rw [List.map_id'] at this; exact this.symm]
      rw [List.flatMap_map]
    refine ⟨c.nblts, ?_, ?_, ?_, ?_, ?_, hn.symm, ?_⟩
    · simp only [finishCombine]
      rw [hnf, c.freq, replicate_flatten_eq]
      exact take_block (fun _ => o.freq) hpos rfl
    · simp only [finishCombine]
      rw [hnf, c.width, replicate_flatten_eq]
      exact take_block (fun _ => o.width) hpos v.width
    · simp only [finishCombine]
      rw [hnf, c.firstArr v, hrep]
      exact take_block (fun _ => o.flexId) hpos v.len
    · simp only [finishCombine]
      rw [c.firstArr v, hrep, firsts_repeat _ hpos]
      exact (List.perm_ext_iff_of_nodup (firsts_nodup _) v.spws).2 (fun s => by rw [mem_firsts, v.ids])
    · simp only [finishCombine]
      rw [c.polArr v]
      exact firsts_blocks (List.length_pos_iff.2 hidne) v.pols
    · intro b hb f hf p hp
      simp only [finishCombine]
      rw [hnf, hrl, c.nblts, reshapeF_unflat _ _ _ _ hb hf hp, c.data b hb f hf p hp]

/-- One polarization. -/
theorem round_one (sF : Argsort K) (reorder : Reorder K V) (blank : V) (combine : Bool) {o r : Obj K V} {W : Nat → Int → Int}
    {fp : List Int} (v : Valid o) (hn : o.flexPol = none) (hne : o.freq ≠ []) (hone : o.pols.length = 1) (c : Conv o r W fp) :
    ∃ x, remove sF reorder blank combine r = some x ∧ SameData o x := by
  have hidne : o.flexId ≠ [] := by
    rw [← List.length_pos_iff, v.len]; exact List.length_pos_iff.2 hne
  have hspw : o.spws ≠ [] := by
    obtain ⟨s, h⟩ := List.exists_mem_of_ne_nil _ hidne
    exact List.ne_nil_of_mem ((v.ids s).1 h)
  obtain ⟨hl, hm⟩ := c.uniq v hspw
  refine ⟨{ r with pols := unique fp, flexPol := none }, ?_, c.nblts, ?_, ?_, ?_, ?_, ?_, hn.symm, ?_⟩
  · unfold remove
    rw [c.flexPol]
    simp only
    rw [if_pos (Or.inr (by rw [hl, hone]))]
  · show r.freq = o.freq
    rw [c.freq, hone]; simp
  · show r.width = o.width
    rw [c.width, hone]; simp
  · show r.flexId = o.flexId
    rw [c.flexId, hone]
    simp only [List.range_one, List.flatMap_cons, List.flatMap_nil, List.append_nil]
    conv_rhs => rw [← List.map_id o.flexId]
    exact List.map_congr_left (fun s _ => c.zero s)
  · refine (List.perm_ext_iff_of_nodup c.nodup v.spws).2 (fun w => ?_)
    rw [c.spws, hone]
    constructor
    · rintro ⟨p, hp, s, hs, rfl⟩
      rw [show p = 0 by omega, c.zero]; exact hs
    · intro h; exact ⟨0, by omega, w, h, (c.zero w).symm⟩
  · show unique fp = o.pols
    have hn' : (unique fp).Nodup := (unique_sorted fp).imp (fun h => ne_of_lt h)
    have hp := (List.perm_ext_iff_of_nodup hn' v.pols).2 hm
    obtain ⟨a, ha⟩ := List.length_eq_one_iff.1 hone
    rw [ha] at hp ⊢
    exact List.perm_singleton.1 hp
  · intro b hb f hf p hp
    have hp0 : p = 0 := by omega
    subst hp0
    have := c.data b hb f hf 0 hp
    simpa using this

/-- Windows differ in their channels, whatever the order of these. -/
def Different (o : Obj K V) : Prop :=
  ∀ s ∈ o.spws, ∀ t ∈ o.spws, (ofWin o.flexId (o.freq.zip o.width) s).Perm (ofWin o.flexId (o.freq.zip o.width) t) → s = t

/-- **The round trip restores the object** if no two windows have the same channels. Partial: without this hypothesis it fails. -/
theorem roundtrip_partial (sF : Argsort K) (reorder : Reorder K V) (blank : V) (fresh : List Int → Int)
    (hfresh : ∀ l, fresh l ∉ l) (o : Obj K V) (v : Valid o) (hn : o.flexPol = none) (hne : o.freq ≠ [])
    (hd : 1 < o.pols.length → Different o) :
    ∃ r x, convert fresh o = some r ∧ remove sF reorder blank true r = some x ∧ SameData o x := by
  obtain ⟨W, r, fp, hr, c⟩ := convert_conv fresh hfresh o v hn
  have hpos : 0 < o.pols.length := List.length_pos_iff.2 v.some_pol
  by_cases h1 : o.pols.length = 1
  · obtain ⟨x, hx, hs⟩ := round_one sF reorder blank true v hn hne h1 c
    exact ⟨r, x, hr, hx, hs⟩
  · have hmany : 1 < o.pols.length := by omega
    obtain ⟨x, hx, hs⟩ := round_many sF reorder blank v hn hne hmany c (fun s hs t ht h =>
      hd hmany s hs t ht (signature_perm sF _ _ _ v.len (by rw [v.len, v.width]) s t h))
    exact ⟨r, x, hr, hx, hs⟩

/-- **Two windows with the same channels make the way back fail**, for any object with several polarizations. -/
theorem roundtrip_fails (sF : Argsort K) (reorder : Reorder K V) (blank : V) (fresh : List Int → Int)
    (hfresh : ∀ l, fresh l ∉ l) (o : Obj K V) (v : Valid o) (hn : o.flexPol = none) (hmany : 1 < o.pols.length) (s t : Int) (hst : s ≠ t)
    (hs : s ∈ o.spws) (ht : t ∈ o.spws) (hf : ofWin o.flexId o.freq s = ofWin o.flexId o.freq t)
    (hw : ofWin o.flexId o.width s = ofWin o.flexId o.width t) :
    ∃ r, convert fresh o = some r ∧ remove sF reorder blank true r = none := by
  obtain ⟨W, r, fp, hr, c⟩ := convert_conv fresh hfresh o v hn
  refine ⟨r, hr, ?_⟩
  obtain ⟨hl, hm⟩ := c.uniq v (List.ne_nil_of_mem hs)
  have hsl : 0 < o.spws.length := List.length_pos_of_mem hs
  have hcount : r.spws.length ≠ 1 := by
    rw [c.count]
    have : 2 * 1 ≤ o.pols.length * o.spws.length := Nat.mul_le_mul hmany hsl
    omega
  have hpos : 0 < o.pols.length := by omega
  unfold remove
  rw [c.flexPol]
  simp only
  rw [if_neg (by rw [hl]; omega), if_pos trivial, foldlM_groups_error]
  intro hp
  have hsi := (v.ids s).2 hs
  have hti := (v.ids t).2 ht
  have mem : ∀ u ∈ o.flexId, u ∈ FlexPol.firsts r.flexId := by
    intro u hu
    rw [mem_firsts, c.flexId, List.mem_flatMap]
    exact ⟨0, List.mem_range.2 hpos, List.mem_map.2 ⟨u, hu, c.zero u⟩⟩
  have hsig : ∀ u ∈ o.flexId, signature sF r.flexId r.freq r.width u = signature sF o.flexId o.freq o.width u := by
    intro u hu
    have := c.sig v sF hpos hu
    rwa [c.zero] at this
  have hpol : ∀ u ∈ o.spws, polOf r.spws fp u = (o.pols[0]?).getD 0 := by
    intro u hu
    have := c.pol 0 hpos u hu
    rwa [c.zero] at this
  have hsym : (FlexPol.firsts r.flexId).Pairwise (fun a b => a ≠ b ∧ ¬ (signature sF r.flexId r.freq r.width a = signature sF r.flexId r.freq r.width b ∧
      polOf r.spws fp a = polOf r.spws fp b)) := by
    have h := List.pairwise_and_iff.2 ⟨(firsts_nodup r.flexId : List.Pairwise _ _), hp⟩
    exact h
  have both : signature sF r.flexId r.freq r.width s = signature sF r.flexId r.freq r.width t ∧ polOf r.spws fp s = polOf r.spws fp t := by
    rw [hsig s hsi, hsig t hti, hpol s hs, hpol t ht]
    refine ⟨?_, rfl⟩
    unfold signature
    rw [hf, hw]
  obtain ⟨i, hi, hie⟩ := List.mem_iff_getElem.1 (mem s hsi)
  obtain ⟨j, hj, hje⟩ := List.mem_iff_getElem.1 (mem t hti)
  rcases Nat.lt_trichotomy i j with h | h | h
  · have := (List.pairwise_iff_getElem.1 hsym i j hi hj h).2
    rw [hie, hje] at this; exact this both
  · subst h; exact hst (hie ▸ hje)
  · have := (List.pairwise_iff_getElem.1 hsym j i hj hi h).2
    rw [hie, hje] at this; exact this ⟨both.1.symm, both.2.symm⟩

end Verif.FlexPol
