import Verif.FlexPol.Spread

/-! Combining windows on the way back, for any flex-pol object. -/
namespace Verif.FlexPol
open Verif.Np Verif.FreqSort

set_option linter.unusedSectionVars false

variable {K V : Type} [LinearOrder K]

/-- `x` has every visibility of the flex-pol object `o` at its frequency, width and polarization, and nothing else: cell `(f, p)` of `x`
is channel `τ f p` of `o`. -/
structure Kept (o x : Obj K V) (τ : Nat → Nat → Nat) : Prop where
  nblts : x.nblts = o.nblts
  flexPol : x.flexPol = none
  pols : x.pols.Nodup
  width : x.width.length = x.freq.length
  ids : x.flexId.length = x.freq.length
  lt : ∀ f < x.freq.length, ∀ p < x.pols.length, τ f p < o.freq.length
  inj : ∀ f < x.freq.length, ∀ p < x.pols.length, ∀ f' < x.freq.length, ∀ p' < x.pols.length, τ f p = τ f' p' → f = f' ∧ p = p'
  surj : ∀ t < o.freq.length, ∃ f < x.freq.length, ∃ p < x.pols.length, τ f p = t
  cell : ∀ f < x.freq.length, ∀ p q, x.pols[p]? = some q →
    x.freq[f]? = o.freq[τ f p]? ∧ x.width[f]? = o.width[τ f p]? ∧ HasPol o (τ f p) q ∧ ∀ b < o.nblts, x.data b f p = o.data b (τ f p) 0
  windows : ∀ f < x.freq.length, ∀ f' < x.freq.length, ∀ p < x.pols.length,
    (x.flexId[f]? = x.flexId[f']? ↔ o.flexId[τ f p]? = o.flexId[τ f' p]?)

/-! ### Blocks -/

theorem slice_block {α : Type} (g : Nat → List α) (m : Nat) : ∀ (n p : Nat), (∀ a < n, (g a).length = m) → p < n →
    (((List.range n).flatMap g).drop (m * p)).take m = g p := by
  intro n
  induction n with
  | zero => intro p _ hp; omega
  | succ n ih =>
    intro p hg hp
    have hlen : ((List.range n).flatMap g).length = m * n := by
      rw [List.length_flatMap, List.map_congr_left (g := fun _ => m) (fun a ha => hg a (by have := List.mem_range.1 ha; omega))]
      simp [Nat.mul_comm]
    rw [List.range_succ, List.flatMap_append]
    simp only [List.flatMap_cons, List.flatMap_nil, List.append_nil]
    by_cases hpn : p = n
    · subst hpn
      rw [← hlen, List.drop_left', List.take_of_length_le (by rw [hg p (by omega)])]
      rfl
    · have hle : m * (p + 1) ≤ m * n := Nat.mul_le_mul_left _ (by omega)
      rw [Nat.mul_add, Nat.mul_one] at hle
      rw [List.drop_append_of_le_length (by omega), List.take_append_of_le_length (by rw [List.length_drop, hlen]; omega),
        ih p (fun a ha => hg a (by omega)) (by omega)]

theorem split_blocks {α : Type} (m : Nat) : ∀ (n : Nat) (l : List α), l.length = m * n →
    l = (List.range n).flatMap (fun p => (l.drop (m * p)).take m) := by
  intro n
  induction n with
  | zero => intro l h; simp at h; simp [h]
  | succ n ih =>
    intro l h
    rw [List.range_succ, List.flatMap_append]
    simp only [List.flatMap_cons, List.flatMap_nil, List.append_nil]
    have h1 : (l.take (m * n)).length = m * n := by rw [List.length_take, h, Nat.mul_succ]; omega
    have h2 : (l.drop (m * n)).take m = l.drop (m * n) := by
      apply List.take_of_length_le
      rw [List.length_drop, h, Nat.mul_succ]; omega
    have h3 : (List.range n).flatMap (fun p => (l.drop (m * p)).take m) = l.take (m * n) := by
      conv_rhs => rw [ih _ h1]
      apply List.flatMap_congr
      intro p hp
      have hp' := List.mem_range.1 hp
      have hle : m * (p + 1) ≤ m * n := Nat.mul_le_mul_left _ (by omega)
      rw [Nat.mul_add, Nat.mul_one] at hle
      rw [List.drop_take, List.take_take]
      congr 1
      omega
    rw [h2, h3, List.take_append_drop]

/-- The values of a label that occurs in one block only. -/
theorem ofWin_only {α : Type} (h : Nat → List Int) (g : Nat → List α) (s : Int) (p : Nat) : ∀ n : Nat,
    (∀ a < n, (h a).length = (g a).length) → (∀ a < n, a ≠ p → s ∉ h a) →
    ofWin ((List.range n).flatMap h) ((List.range n).flatMap g) s = if p < n then ofWin (h p) (g p) s else [] := by
  intro n
  induction n with
  | zero => intro _ _; simp [ofWin]
  | succ n ih =>
    intro hl hs
    have hlen : ((List.range n).flatMap h).length = ((List.range n).flatMap g).length := by
      rw [List.length_flatMap, List.length_flatMap]
      congr 1
      exact List.map_congr_left (fun a ha => hl a (by have := List.mem_range.1 ha; omega))
    rw [List.range_succ, List.flatMap_append, List.flatMap_append, ofWin_append _ _ _ _ hlen,
      ih (fun a ha => hl a (by omega)) (fun a ha => hs a (by omega))]
    simp only [List.flatMap_cons, List.flatMap_nil, List.append_nil]
    by_cases hpn : p = n
    · subst hpn
      simp
    · rw [ofWin_notMem s (h n) _ (hs n (by omega) (Ne.symm hpn)), List.append_nil]
      by_cases h1 : p < n
      · rw [if_pos h1, if_pos (by omega)]
      · rw [if_neg h1, if_neg (by omega)]

theorem ofWin_map_injOn {α : Type} (g : Int → Int) (s : Int) (ids : List Int) (xs : List α) (h : ∀ x ∈ ids, g x = g s → x = s) :
    ofWin (ids.map g) xs (g s) = ofWin ids xs s := ofWin_map_inj g s ids xs h

/-! ### Objects that are ready for reshaping -/

structure Ready (o : Obj K V) (pol first : Int → Int) (P : List Int) (m : Nat) (A : List Int) : Prop where
  nodup : P.Nodup
  pos : 0 < m
  len : o.flexId.length = o.freq.length
  width : o.width.length = o.freq.length
  blocks : o.flexId.map pol = P.flatMap (List.replicate m)
  ord : ∀ q ∈ P, ofWin (o.flexId.map pol) (o.flexId.map first) q = A
  freq : ∀ s ∈ o.flexId, ∀ t ∈ o.flexId, first s = first t → ofWin o.flexId o.freq s = ofWin o.flexId o.freq t
  wid : ∀ s ∈ o.flexId, ∀ t ∈ o.flexId, first s = first t → ofWin o.flexId o.width s = ofWin o.flexId o.width t
  one : ∀ s ∈ o.flexId, ∀ t ∈ o.flexId, first s = first t → pol s = pol t → s = t

theorem flatMap_getD (P : List Int) {α : Type} (g : Int → List α) : P.flatMap g = (List.range P.length).flatMap (fun p => g ((P[p]?).getD 0)) := by
  conv_lhs => rw [show P = (List.range P.length).map (fun p => (P[p]?).getD 0) from by
    have := range_getD_map (fun x => x) P; rw [List.map_id'] at this; exact this.symm]
  rw [List.flatMap_map]

section
variable {o : Obj K V} {pol first : Int → Int} {P : List Int} {m : Nat} {A : List Int}

theorem Ready.total (h : Ready o pol first P m A) : o.flexId.length = m * P.length := by
  have := congrArg List.length h.blocks
  rw [List.length_map, List.length_flatMap] at this
  simpa [Nat.mul_comm] using this

theorem Ready.polBlock (h : Ready o pol first P m A) {p : Nat} (hp : p < P.length) :
    ((o.flexId.drop (m * p)).take m).map pol = List.replicate m ((P[p]?).getD 0) := by
  rw [List.map_take, List.map_drop, h.blocks, flatMap_getD]
  exact slice_block _ m _ p (fun a _ => by simp) hp

theorem Ready.polMem (h : Ready o pol first P m A) {p : Nat} (hp : p < P.length) {s : Int} (hs : s ∈ (o.flexId.drop (m * p)).take m) :
    pol s = (P[p]?).getD 0 := by
  have := List.mem_map_of_mem (f := pol) hs
  rw [h.polBlock hp] at this
  exact (List.mem_replicate.1 this).2

theorem block_len {α : Type} {l : List α} {m n p : Nat} (hl : l.length = m * n) (hp : p < n) : ((l.drop (m * p)).take m).length = m := by
  have hle : m * (p + 1) ≤ m * n := Nat.mul_le_mul_left _ (by omega)
  rw [Nat.mul_add, Nat.mul_one] at hle
  rw [List.length_take, List.length_drop, hl]; omega

theorem mem_block {α : Type} {l : List α} {m p : Nat} {x : α} (h : x ∈ (l.drop (m * p)).take m) : x ∈ l :=
  List.mem_of_mem_drop (List.mem_of_mem_take h)

theorem Ready.firstBlock (h : Ready o pol first P m A) {p : Nat} (hp : p < P.length) : ((o.flexId.drop (m * p)).take m).map first = A := by
  have hq : (P[p]?).getD 0 ∈ P := mem_getD.2 ⟨p, hp, rfl⟩
  rw [← h.ord _ hq, h.blocks, flatMap_getD, split_blocks m P.length (o.flexId.map first) (by rw [List.length_map, h.total])]
  rw [ofWin_only _ _ _ p P.length]
  · rw [if_pos hp, List.map_take, List.map_drop]
    have hlen : (((o.flexId.map first).drop (m * p)).take m).length = m := block_len (by rw [List.length_map, h.total]) hp
    have := ofWin_blocks (((o.flexId.map first).drop (m * p)).take m) m hlen ((P[p]?).getD 0) [(P[p]?).getD 0] (by simp) (by simp)
    simpa using this.symm
  · intro a ha
    rw [List.length_replicate, block_len (by rw [List.length_map, h.total]) ha]
  · intro a ha hap hm
    exact hap (getD_inj h.nodup ha hp (List.mem_replicate.1 hm).2.symm)

/-- All blocks carry the same values of a quantity that is equal for matching windows. -/
theorem Ready.sameBlock {α : Type} (h : Ready o pol first P m A) (xs : List α) (hl : xs.length = o.flexId.length)
    (hx : ∀ s ∈ o.flexId, ∀ t ∈ o.flexId, first s = first t → ofWin o.flexId xs s = ofWin o.flexId xs t) {p p' : Nat} (hp : p < P.length)
    (hp' : p' < P.length) : (xs.drop (m * p)).take m = (xs.drop (m * p')).take m := by
  have hA : ∀ a < P.length, A.length = m := fun a ha => by
    rw [← h.firstBlock ha, List.length_map, block_len h.total ha]
  have key : ∀ a < P.length, ∀ w ∈ (o.flexId.drop (m * a)).take m, ofWin A ((xs.drop (m * a)).take m) (first w) = ofWin o.flexId xs w := by
    intro a ha w hw
    rw [← h.firstBlock ha, ofWin_map_inj]
    · conv_rhs => rw [split_blocks m P.length o.flexId h.total, split_blocks m P.length xs (by rw [hl, h.total])]
      rw [ofWin_only _ _ _ a P.length, if_pos ha]
      · intro b hb
        rw [block_len h.total hb, block_len (by rw [hl, h.total]) hb]
      · intro b hb hba hm
        exact hba (getD_inj h.nodup hb ha ((h.polMem hb hm).symm.trans (h.polMem ha hw)))
    · intro x hx' he
      exact h.one x (mem_block hx') w (mem_block hw) he ((h.polMem ha hx').trans (h.polMem ha hw).symm)
  apply ofWin_ext A
  · rw [hA p hp, block_len (by rw [hl, h.total]) hp]
  · rw [hA p hp, block_len (by rw [hl, h.total]) hp']
  · intro g hg
    have hg1 := hg
    have hg2 := hg
    rw [← h.firstBlock hp] at hg1
    rw [← h.firstBlock hp'] at hg2
    obtain ⟨w, hw, rfl⟩ := List.mem_map.1 hg1
    obtain ⟨w', hw', he⟩ := List.mem_map.1 hg2
    rw [key p hp w hw, ← he, key p' hp' w' hw']
    exact hx w (mem_block hw) w' (mem_block hw') he.symm

theorem block_get {α : Type} {l : List α} {m p f : Nat} (hf : f < m) : ((l.drop (m * p)).take m)[f]? = l[f + m * p]? := by
  rw [List.getElem?_take, if_pos hf, List.getElem?_drop, Nat.add_comm]

/-- **Reshaping a ready object keeps every visibility.** -/
theorem Ready.kept (h : Ready o pol first P m A) (fp : List Int) (hfp : o.flexPol = some fp) (hpol : ∀ s ∈ o.flexId, pol s = polOf o.spws fp s)
    (hsp : ∀ s ∈ o.flexId, s ∈ o.spws) (hl : fp.length = o.spws.length) (sets : List (WinSet K)) (hfirst : first = firstOf sets)
    (hnf : (sets.map (fun w => w.freqs.length)).sum = m) :
    Kept o (finishCombine o fp sets) (fun f p => f + m * p) := by
  have hft : o.freq.length = m * P.length := by rw [← h.len, h.total]
  have hwt : o.width.length = m * P.length := by rw [h.width, hft]
  have hPpos : 0 < P.length ∨ P = [] := by
    rcases Nat.eq_zero_or_pos P.length with hz | hz
    · right; exact List.length_eq_zero_iff.1 hz
    · left; exact hz
  have hpolsEq : (finishCombine o fp sets).pols = P := by
    simp only [finishCombine]
    rw [← List.map_congr_left hpol, h.blocks]
    exact firsts_blocks h.pos h.nodup
  have hfreqEq : (finishCombine o fp sets).freq = o.freq.take m := by simp only [finishCombine]; rw [hnf]
  have hwidEq : (finishCombine o fp sets).width = o.width.take m := by simp only [finishCombine]; rw [hnf]
  have hidEq : (finishCombine o fp sets).flexId = (o.flexId.map first).take m := by simp only [finishCombine]; rw [hnf, hfirst]
  have hnlt : ∀ {p : Nat}, p < P.length → m ≤ m * P.length := fun hp => Nat.le_mul_of_pos_right _ (by omega)
  have hlen : ∀ {p : Nat}, p < P.length → (finishCombine o fp sets).freq.length = m := by
    intro p hp
    have := hnlt hp
    rw [hfreqEq, List.length_take, hft]; omega
  have hlt : ∀ f < m, ∀ p < P.length, f + m * p < m * P.length := by
    intro f hf p hp
    have hle : m * (p + 1) ≤ m * P.length := Nat.mul_le_mul_left _ (by omega)
    rw [Nat.mul_add, Nat.mul_one] at hle; omega
  have hflen : (finishCombine o fp sets).freq.length ≤ m := by rw [hfreqEq, List.length_take]; omega
  refine ⟨rfl, rfl, by rw [hpolsEq]; exact h.nodup, ?_, ?_, ?_, ?_, ?_, ?_, ?_⟩
  · rw [hwidEq, hfreqEq, List.length_take, List.length_take, h.width]
  · rw [hidEq, hfreqEq, List.length_take, List.length_take, List.length_map, h.len]
  · intro f hf p hp
    rw [hpolsEq] at hp
    rw [hft]; exact hlt f (by omega) p hp
  · intro f hf p hp f' hf' p' hp' he
    have hm := h.pos
    have e1 : (f + m * p) % m = f := by rw [Nat.add_mul_mod_self_left, Nat.mod_eq_of_lt (by omega)]
    have e2 : (f' + m * p') % m = f' := by rw [Nat.add_mul_mod_self_left, Nat.mod_eq_of_lt (by omega)]
    have hff : f = f' := by
      have he' : f + m * p = f' + m * p' := he
      rw [← e1, he', e2]
    refine ⟨hff, ?_⟩
    have he' : f + m * p = f' + m * p' := he
    rw [hff] at he'
    exact Nat.eq_of_mul_eq_mul_left hm (by omega)
  · intro t ht
    have hm := h.pos
    rw [hft] at ht
    have hP : 0 < P.length := by
      rcases Nat.eq_zero_or_pos P.length with hz | hz
      · rw [hz] at ht; omega
      · exact hz
    refine ⟨t % m, by rw [hlen hP]; exact Nat.mod_lt _ hm, t / m, ?_, ?_⟩
    · rw [hpolsEq]; exact Nat.div_lt_of_lt_mul ht
    · exact Nat.mod_add_div t m
  · intro f hf p q hq
    rw [hpolsEq] at hq
    have hp : p < P.length := by
      by_contra hc; rw [List.getElem?_eq_none (by omega)] at hq; simp at hq
    have h0 : 0 < P.length := by omega
    have hfm : f < m := by omega
    have slice0 : ∀ {α : Type} (l : List α), (l.take m)[f]? = ((l.drop (m * 0)).take m)[f]? := fun l => by simp
    refine ⟨?_, ?_, ?_, ?_⟩
    · rw [hfreqEq, slice0, h.sameBlock o.freq h.len.symm h.freq h0 hp, block_get hfm]
    · rw [hwidEq, slice0, h.sameBlock o.width (by rw [h.width, h.len]) h.wid h0 hp, block_get hfm]
    · have hidx : f + m * p < o.flexId.length := by rw [h.total]; exact hlt f hfm p hp
      have hmem : o.flexId[f + m * p] ∈ (o.flexId.drop (m * p)).take m := by
        apply List.mem_of_getElem? (i := f)
        rw [block_get hfm, List.getElem?_eq_getElem hidx]
      have hps := h.polMem hp hmem
      rw [hq] at hps
      have hs := hsp _ (List.getElem_mem hidx)
      have hi := List.idxOf_lt_length_iff.2 hs
      refine ⟨o.spws.idxOf o.flexId[f + m * p], o.flexId[f + m * p], fp, hfp, List.getElem?_eq_getElem hidx, ?_, ?_⟩
      · rw [List.getElem?_eq_getElem hi, List.getElem_idxOf hi]
      · rw [hpol _ (List.getElem_mem hidx)] at hps
        unfold polOf at hps
        have hi' : o.spws.idxOf o.flexId[f + m * p] < fp.length := by rw [hl]; exact hi
        rw [List.getElem?_eq_getElem hi'] at hps ⊢
        simpa using hps
    · intro b hb
      simp only [finishCombine]
      rw [hnf, hft, reshapeF_unflat _ _ _ _ hb hfm hp]
  · intro f hf f' hf' p hp
    rw [hpolsEq] at hp
    have h0 : 0 < P.length := by omega
    have hfm : f < m := by omega
    have hfm' : f' < m := by omega
    have hb : (o.flexId.map first).take m = A := by
      rw [← List.map_take]
      have := h.firstBlock h0
      simpa using this
    have hA : ∀ {k : Nat}, k < m → A[k]? = (o.flexId[k + m * p]?).map first := by
      intro k hk
      rw [← h.firstBlock hp, List.getElem?_map, block_get hk]
    rw [hidEq, hb, hA hfm, hA hfm']
    have i1 : f + m * p < o.flexId.length := by rw [h.total]; exact hlt f hfm p hp
    have i2 : f' + m * p < o.flexId.length := by rw [h.total]; exact hlt f' hfm' p hp
    have m1 : o.flexId[f + m * p] ∈ (o.flexId.drop (m * p)).take m := by
      apply List.mem_of_getElem? (i := f); rw [block_get hfm, List.getElem?_eq_getElem i1]
    have m2 : o.flexId[f' + m * p] ∈ (o.flexId.drop (m * p)).take m := by
      apply List.mem_of_getElem? (i := f'); rw [block_get hfm', List.getElem?_eq_getElem i2]
    rw [List.getElem?_eq_getElem i1, List.getElem?_eq_getElem i2]
    simp only [Option.map_some, Option.some.injEq]
    constructor
    · intro he
      exact h.one _ (List.getElem_mem i1) _ (List.getElem_mem i2) he ((h.polMem hp m1).trans (h.polMem hp m2).symm)
    · intro he; rw [he]

end

end Verif.FlexPol
