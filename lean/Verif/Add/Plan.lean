import Verif.Add.Model

/-! Correctness of the plans of the three axes. -/
namespace Verif.Add
open Verif.Np Verif.FreqSort

variable {κ : Type} [DecidableEq κ]

structure PlanOk (A B : List κ) (p : Plan) : Prop where
  nodupA : A.Nodup
  nodupB : B.Nodup
  reord : Reordered A B p.perm
  new : p.new = newInds A B
  t2o : p.t2o = t2o (fancy A p.perm ++ fancy B p.new) B
  order : p.order.Perm (List.range (A.length + p.new.length))
  ia : ∀ i : Nat, i ∈ p.ia ↔ ∃ x, A[i]? = some x ∧ x ∈ B

variable {A B : List κ} {p : Plan}

theorem newInds_lt (A B : List κ) : ∀ i ∈ newInds A B, i < B.length := by
  intro i hi
  unfold newInds at hi
  rw [mem_whereIdx] at hi
  obtain ⟨x, hx, -⟩ := hi
  exact (List.getElem?_eq_some_iff.1 hx).1

theorem effOrder_eq {n : Nat} (p : Plan) (h : p.order.Perm (List.range n)) : effOrder p = p.order := by
  unfold effOrder
  split
  · rfl
  · split
    · rename_i h2
      have hl := h.length_eq
      rw [List.length_range] at hl
      have : p.order.IsChain (· < ·) := h2.2.imp (fun a b hab => by omega)
      rw [(chain_range h).1 this, List.length_range]
    · rfl

/-- Padded labels. -/
def padded (A B : List κ) (p : Plan) : List κ := fancy A p.perm ++ fancy B p.new

theorem perm_length (h : PlanOk A B p) : (fancy A p.perm).length = A.length := by
  rw [fancy_length A p.perm (perm_lt h.reord.isPerm), h.reord.isPerm.length_eq]; simp

theorem padded_length (h : PlanOk A B p) : (padded A B p).length = A.length + p.new.length := by
  unfold padded
  rw [List.length_append, perm_length h, fancy_length B p.new (by rw [h.new]; exact newInds_lt A B)]

theorem new_labels (h : PlanOk A B p) : fancy B p.new = B.filter (fun x => !A.contains x) := by
  rw [h.new]; unfold newInds; rw [fancy_where]

theorem padded_mem (h : PlanOk A B p) (x : κ) : x ∈ padded A B p ↔ x ∈ A ∨ x ∈ B := by
  unfold padded
  rw [List.mem_append, (fancy_perm A p.perm h.reord.isPerm).mem_iff, new_labels h, List.mem_filter]
  by_cases hx : x ∈ A <;> simp [hx]

theorem padded_nodup (h : PlanOk A B p) : (padded A B p).Nodup := by
  unfold padded
  rw [List.nodup_append']
  refine ⟨(fancy_perm A p.perm h.reord.isPerm).symm.nodup h.nodupA, ?_, ?_⟩
  · rw [new_labels h]; exact h.nodupB.filter _
  · intro x hx hx'
    rw [(fancy_perm A p.perm h.reord.isPerm).mem_iff] at hx
    rw [new_labels h, List.mem_filter] at hx'
    simp [hx] at hx'

theorem order_lt (h : PlanOk A B p) : ∀ i ∈ p.order, i < (padded A B p).length := by
  rw [padded_length h]; exact perm_lt h.order

/-- Final labels. -/
theorem mergeRow_labels (h : PlanOk A B p) : (mergeRow p A B).Perm (padded A B p) := by
  unfold mergeRow
  exact fancy_perm _ _ (by rw [show (fancy A p.perm ++ fancy B p.new) = padded A B p from rfl, padded_length h]; exact h.order)

theorem final_mem (h : PlanOk A B p) (x : κ) : x ∈ mergeRow p A B ↔ x ∈ A ∨ x ∈ B := by
  rw [(mergeRow_labels h).mem_iff, padded_mem h]

theorem final_nodup (h : PlanOk A B p) : (mergeRow p A B).Nodup := (mergeRow_labels h).symm.nodup (padded_nodup h)

/-- What stands behind a position of the result. -/
structure Behind (A B : List κ) (p : Plan) (i : Nat) (x : κ) : Prop where
  inOther : (p.order.getD i 0) ∈ p.t2o ↔ x ∈ B
  inThis : p.order.getD i 0 < A.length ↔ x ∈ A
  other : OverlapFirst A B → x ∈ B → B[p.t2o.idxOf (p.order.getD i 0)]? = some x
  this : x ∈ A → A[p.perm.getD (p.order.getD i 0) 0]? = some x

theorem getD_of_get {α : Type} {l : List α} {i : Nat} {d x : α} (h : l[i]? = some x) : l.getD i d = x := by
  rw [List.getD_eq_getElem?_getD, h]; rfl

theorem behind (h : PlanOk A B p) (i : Nat) (x : κ) (hx : (mergeRow p A B)[i]? = some x) : Behind A B p i x := by
  unfold mergeRow at hx
  rw [show (fancy A p.perm ++ fancy B p.new) = padded A B p from rfl, fancy_get _ _ (order_lt h)] at hx
  rw [Option.bind_eq_some_iff] at hx
  obtain ⟨i', hi, hx⟩ := hx
  have hD : p.order.getD i 0 = i' := getD_of_get hi
  have hin : i' ∈ p.t2o ↔ x ∈ B := by
    rw [h.t2o]
    unfold t2o
    rw [mem_whereIdx]
    rw [show (fancy A p.perm ++ fancy B p.new) = padded A B p from rfl, hx]
    simp
  have hA : i' < A.length ↔ x ∈ A := by
    unfold padded at hx
    by_cases hlt : i' < A.length
    · rw [List.getElem?_append_left (by rw [perm_length h]; exact hlt)] at hx
      have := List.mem_of_getElem? hx
      rw [(fancy_perm A p.perm h.reord.isPerm).mem_iff] at this
      simp [hlt, this]
    · rw [List.getElem?_append_right (by rw [perm_length h]; omega)] at hx
      have := List.mem_of_getElem? hx
      rw [new_labels h, List.mem_filter] at this
      simp only [List.contains_iff_mem, Bool.not_eq_eq_eq_not, Bool.not_true, ← Bool.not_eq_true] at this
      simp [hlt, this.2]
  refine ⟨by rw [hD]; exact hin, by rw [hD]; exact hA, ?_, ?_⟩
  · intro hof hxB
    rw [hD]
    have hmem := hin.2 hxB
    have hp := padded_t2o h.reord
    rw [← h.new] at hp
    have e1 : p.t2o = t2o (A ++ fancy B p.new) B := by rw [hp.2]; exact h.t2o
    rw [← e1] at hp
    have hfan := hp.1
    rw [show (fancy A p.perm ++ fancy B p.new) = padded A B p from rfl] at hfan
    unfold OverlapFirst at hof
    rw [hof] at hfan
    have hlt : ∀ k ∈ p.t2o, k < (padded A B p).length := by
      intro k hk
      rw [h.t2o] at hk
      unfold t2o at hk
      rw [mem_whereIdx] at hk
      obtain ⟨y, hy, -⟩ := hk
      exact (List.getElem?_eq_some_iff.1 hy).1
    rw [← hfan, fancy_get _ _ hlt, List.getElem?_idxOf hmem]
    exact hx
  · intro hxA
    rw [hD]
    have hlt := hA.2 hxA
    unfold padded at hx
    rw [List.getElem?_append_left (by rw [perm_length h]; exact hlt), fancy_get _ _ (perm_lt h.reord.isPerm)] at hx
    rw [Option.bind_eq_some_iff] at hx
    obtain ⟨j, hj, hx⟩ := hx
    rw [getD_of_get hj]
    exact hx

/-- Arrays along one axis: the value of a label is that of this object if it has the label, else that of the other. -/
theorem mergeRow_value {α : Type} (h : PlanOk A B p) (a b : List α) (ha : a.length = A.length) (hb : b.length = B.length)
    (i : Nat) (x : κ) (hx : (mergeRow p A B)[i]? = some x) :
    (∀ j : Nat, A[j]? = some x → (mergeRow p a b)[i]? = a[j]?) ∧
    (x ∉ A → ∀ j : Nat, B[j]? = some x → (mergeRow p a b)[i]? = b[j]?) := by
  have hb' := behind h i x hx
  unfold mergeRow at hx
  rw [show (fancy A p.perm ++ fancy B p.new) = padded A B p from rfl, fancy_get _ _ (order_lt h)] at hx
  rw [Option.bind_eq_some_iff] at hx
  obtain ⟨i', hi, hx⟩ := hx
  have hD : p.order.getD i 0 = i' := getD_of_get hi
  have hperm : ∀ k ∈ p.perm, k < a.length := by rw [ha]; exact perm_lt h.reord.isPerm
  have hnew : ∀ k ∈ p.new, k < b.length := by rw [hb, h.new]; exact newInds_lt A B
  have hla : (fancy a p.perm).length = A.length := by
    rw [fancy_length a p.perm hperm, h.reord.isPerm.length_eq]; simp
  have hord : ∀ k ∈ p.order, k < (fancy a p.perm ++ fancy b p.new).length := by
    rw [List.length_append, hla, fancy_length b p.new hnew]
    exact perm_lt h.order
  have hout : (mergeRow p a b)[i]? = (fancy a p.perm ++ fancy b p.new)[i']? := by
    unfold mergeRow
    rw [fancy_get _ _ hord, hi]
    rfl
  rw [hout]
  constructor
  · intro j hj
    have hlt : i' < A.length := by rw [← hD]; exact hb'.inThis.2 (List.mem_of_getElem? hj)
    rw [List.getElem?_append_left (by omega), fancy_get a p.perm hperm]
    unfold padded at hx
    rw [List.getElem?_append_left (by rw [perm_length h]; exact hlt), fancy_get _ _ (perm_lt h.reord.isPerm)] at hx
    rw [Option.bind_eq_some_iff] at hx
    obtain ⟨m, hm, hx⟩ := hx
    rw [hm]
    have := (List.getElem?_inj (List.getElem?_eq_some_iff.1 hx).1 h.nodupA).1 (hx.trans hj.symm)
    subst this
    rfl
  · intro hxA j hj
    have hlt : ¬i' < A.length := by rw [← hD, hb'.inThis]; exact hxA
    rw [List.getElem?_append_right (by omega), fancy_get b p.new hnew, hla]
    unfold padded at hx
    rw [List.getElem?_append_right (by rw [perm_length h]; omega), perm_length h,
      fancy_get _ _ (by rw [h.new]; exact newInds_lt A B)] at hx
    rw [Option.bind_eq_some_iff] at hx
    obtain ⟨m, hm, hx⟩ := hx
    rw [hm]
    have := (List.getElem?_inj (List.getElem?_eq_some_iff.1 hx).1 h.nodupB).1 (hx.trans hj.symm)
    subst this
    rfl

/-! ### The three axes -/

variable {ρ K V : Type} [LinearOrder ρ] [LinearOrder K]

/-- What `check` guarantees, and labels that are all different. -/
structure Valid (o : Obj ρ K V) : Prop where
  uvw : o.uvw.length = o.blt.length
  lst : o.lst.length = o.blt.length
  pc : o.pc.length = o.blt.length
  spw : o.spw.length = o.freq.length
  width : o.width.length = o.freq.length
  spws : ∀ w, w ∈ o.spws ↔ w ∈ o.spw
  blt_nodup : o.blt.Nodup
  chan_nodup : o.chan.Nodup
  pol_nodup : o.pol.Nodup

theorem inter_common {κ : Type} [LinearOrder κ] (A B : List κ) : Common A B (inter A B) where
  nodup := ((unique_sorted A).imp (fun h => ne_of_lt h) : (unique A).Nodup).filter _
  mem := by
    intro x
    unfold inter
    rw [List.mem_filter, mem_unique]
    simp

theorem argsort_perm' {α : Type} [LinearOrder α] (s : Argsort α) (l : List α) : (s.run l).Perm (List.range l.length) := (s.sorts l).1

theorem bltPlan_ok (sB : Argsort ρ) (this other : Obj ρ K V) (h1 : this.blt.Nodup) (h2 : other.blt.Nodup) :
    PlanOk this.blt other.blt (bltPlan sB this other) := by
  have hr := reordered h1 h2 (inter_common this.blt other.blt)
  have hl : (fancy other.blt (newInds this.blt other.blt)).length = (newInds this.blt other.blt).length :=
    fancy_length _ _ (newInds_lt _ _)
  refine ⟨h1, h2, hr, rfl, ?_, ?_, fun i => overlap_mem h1 (inter_common _ _) i⟩
  · exact (padded_t2o hr).2
  · unfold bltPlan
    simp only
    split
    · rename_i h; rw [h]; simp
    · have := argsort_perm' sB (this.blt ++ fancy other.blt (newInds this.blt other.blt))
      rw [List.length_append, hl] at this
      exact this

theorem polPlan_ok (sP : Argsort Int) (this other : Obj ρ K V) (h1 : this.pol.Nodup) (h2 : other.pol.Nodup) :
    PlanOk this.pol other.pol (polPlan sP this other) := by
  have hr := reordered h1 h2 (inter_common this.pol other.pol)
  have hl : (fancy other.pol (newInds this.pol other.pol)).length = (newInds this.pol other.pol).length :=
    fancy_length _ _ (newInds_lt _ _)
  refine ⟨h1, h2, hr, rfl, rfl, ?_, fun i => overlap_mem h1 (inter_common _ _) i⟩
  unfold polPlan
  simp only
  split
  · rename_i h; rw [h]; simp
  · refine (argsort_perm' sP _).trans (List.Perm.of_eq ?_)
    rw [List.length_map, List.length_append, hl, fancy_length _ _ (perm_lt hr.isPerm), hr.isPerm.length_eq]
    simp

/-! Channels. -/

theorem chan_get (o : Obj ρ K V) (i : Nat) (w : Int) (f : K) : o.chan[i]? = some (w, f) ↔ o.spw[i]? = some w ∧ o.freq[i]? = some f := by
  unfold Obj.chan
  rw [List.getElem?_zip_eq_some]

theorem winInds_lt (o : Obj ρ K V) (h : o.spw.length = o.freq.length) (w : Int) : ∀ i ∈ winInds o w, i < o.freq.length := by
  intro i hi
  unfold winInds at hi
  rw [mem_whereIdx] at hi
  obtain ⟨x, hx, -⟩ := hi
  have := (List.getElem?_eq_some_iff.1 hx).1
  omega

theorem mem_winFreqs (o : Obj ρ K V) (h : o.spw.length = o.freq.length) (w : Int) (f : K) : f ∈ winFreqs o w ↔ (w, f) ∈ o.chan := by
  unfold winFreqs fancy
  rw [List.mem_filterMap, List.mem_iff_getElem?]
  constructor
  · rintro ⟨i, hi, hf⟩
    unfold winInds at hi
    rw [mem_whereIdx] at hi
    obtain ⟨x, hx, hxw⟩ := hi
    simp only [decide_eq_true_eq] at hxw
    subst hxw
    exact ⟨i, (chan_get o i x f).2 ⟨hx, hf⟩⟩
  · rintro ⟨i, hi⟩
    have := (chan_get o i w f).1 hi
    refine ⟨i, ?_, this.2⟩
    unfold winInds
    rw [mem_whereIdx]
    exact ⟨w, this.1, by simp⟩

theorem winFreqs_nodup (o : Obj ρ K V) (h : o.spw.length = o.freq.length) (hn : o.chan.Nodup) (w : Int) : (winFreqs o w).Nodup := by
  have hmap : (winFreqs o w).map (fun f => (w, f)) = o.chan.filter (fun c => decide (c.1 = w)) := by
    rw [← fancy_where]
    have e : whereIdx (fun c : Int × K => decide (c.1 = w)) o.chan = winInds o w := by
      apply strictSorted_ext (whereIdx_sorted _ _) (whereIdx_sorted _ _)
      intro i
      rw [mem_whereIdx, mem_whereIdx]
      constructor
      · rintro ⟨⟨v, f⟩, hi, hv⟩
        exact ⟨v, ((chan_get o i v f).1 hi).1, hv⟩
      · rintro ⟨v, hi, hv⟩
        have hlt := (List.getElem?_eq_some_iff.1 hi).1
        exact ⟨(v, o.freq[i]), (chan_get o i _ _).2 ⟨hi, List.getElem?_eq_getElem (by omega)⟩, hv⟩
    rw [e]
    unfold winFreqs fancy
    rw [List.map_filterMap]
    apply List.filterMap_congr
    intro i hi
    have hlt := winInds_lt o h w i hi
    unfold winInds at hi
    rw [mem_whereIdx] at hi
    obtain ⟨v, hv, hvw⟩ := hi
    simp only [decide_eq_true_eq] at hvw
    subst hvw
    rw [(chan_get o i v o.freq[i]).2 ⟨hv, List.getElem?_eq_getElem hlt⟩, List.getElem?_eq_getElem hlt]
    rfl
  have := hn.filter (fun c => decide (c.1 = w))
  rw [← hmap] at this
  exact List.Nodup.of_map _ this

theorem winInds_idx (o : Obj ρ K V) (h : o.spw.length = o.freq.length) (hn : o.chan.Nodup) (w : Int) (f : K) (hf : f ∈ winFreqs o w) :
    (winInds o w)[(winFreqs o w).idxOf f]? = some (@List.idxOf _ instBEqOfDecidableEq (w, f) o.chan) := by
  have h1 := List.getElem?_idxOf hf
  unfold winFreqs at h1
  rw [fancy_get _ _ (winInds_lt o h w), Option.bind_eq_some_iff] at h1
  obtain ⟨i, hi, hif⟩ := h1
  unfold winFreqs
  rw [hi]
  congr 1
  have him := List.mem_of_getElem? hi
  unfold winInds at him
  rw [mem_whereIdx] at him
  obtain ⟨v, hv, hvw⟩ := him
  simp only [decide_eq_true_eq] at hvw
  subst hvw
  have hc := (chan_get o i v f).2 ⟨hv, hif⟩
  have h2 := @List.getElem?_idxOf _ instBEqOfDecidableEq _ _ _ (List.mem_of_getElem? hc)
  exact (List.getElem?_inj (List.getElem?_eq_some_iff.1 hc).1 hn).1 (hc.trans h2.symm)

/-- The shared channels in the order of the code. -/
def commonChan (this other : Obj ρ K V) : List (Int × K) :=
  (inter this.spws other.spws).flatMap (fun w => (inter (winFreqs this w) (winFreqs other w)).map (fun f => (w, f)))

theorem commonChan_common (this other : Obj ρ K V) (h1 : Valid this) (h2 : Valid other) :
    Common this.chan other.chan (commonChan this other) := by
  constructor
  · unfold commonChan
    rw [List.nodup_flatMap]
    refine ⟨fun w _ => (inter_common _ _).nodup.map (fun a b h => by simpa using h), ?_⟩
    refine (inter_common this.spws other.spws).nodup.imp ?_
    intro a b hab
    simp only [Function.onFun]
    intro x hx hy
    simp only [List.mem_map] at hx hy
    obtain ⟨f, -, rfl⟩ := hx
    obtain ⟨g, -, hg⟩ := hy
    simp only [Prod.mk.injEq] at hg
    exact hab hg.1.symm
  · rintro ⟨w, f⟩
    unfold commonChan
    simp only [List.mem_flatMap, List.mem_map, Prod.mk.injEq]
    constructor
    · rintro ⟨v, -, g, hg, rfl, rfl⟩
      have hh := ((inter_common _ _).mem g).1 hg
      exact ⟨(mem_winFreqs this h1.spw v g).1 hh.1, (mem_winFreqs other h2.spw v g).1 hh.2⟩
    · rintro ⟨ha, hb⟩
      have wa : w ∈ this.spw := (List.of_mem_zip ha).1
      have wb : w ∈ other.spw := (List.of_mem_zip hb).1
      exact ⟨w, ((inter_common _ _).mem w).2 ⟨(h1.spws w).2 wa, (h2.spws w).2 wb⟩, f,
        ((inter_common _ _).mem f).2 ⟨(mem_winFreqs this h1.spw w f).2 ha, (mem_winFreqs other h2.spw w f).2 hb⟩, rfl, rfl⟩

theorem freqOverlap_eq (this other o : Obj ρ K V) (h : Valid o)
    (hin : ∀ w, ∀ f ∈ inter (winFreqs this w) (winFreqs other w), f ∈ winFreqs o w) :
    freqOverlap this other o = overlapInds (commonChan this other) o.chan := by
  unfold freqOverlap commonChan
  unfold overlapInds
  rw [List.map_flatMap]
  congr 1
  funext w
  rw [List.map_map]
  unfold fancy
  rw [List.filterMap_map]
  rw [← List.filterMap_eq_map]
  apply List.filterMap_congr
  intro f hf
  simp only [Function.comp_apply]
  exact winInds_idx o h.spw h.chan_nodup w f (hin w f hf)

theorem freqNew_eq (this other : Obj ρ K V) (h1 : Valid this) (h2 : Valid other) : freqNew this other = newInds this.chan other.chan := by
  unfold freqNew newInds
  apply strictSorted_ext (whereIdx_sorted _ _) (whereIdx_sorted _ _)
  intro i
  rw [mem_whereIdx, mem_whereIdx]
  apply exists_congr
  rintro ⟨w, f⟩
  apply and_congr_right
  intro hi
  have hb := List.mem_of_getElem? hi
  simp only [Bool.not_eq_eq_eq_not, Bool.not_true, ← Bool.not_eq_true, Bool.and_eq_true, List.contains_iff_mem]
  rw [mem_winFreqs this h1.spw, (inter_common _ _).mem]
  constructor
  · intro hn hc
    exact hn ⟨⟨(h1.spws w).2 (List.of_mem_zip hc).1, (h2.spws w).2 (List.of_mem_zip hb).1⟩, hc⟩
  · intro hn hc
    exact hn hc.2

theorem fancy_zip {α β : Type} (a : List α) (b : List β) (idx : List Nat) (h : ∀ i ∈ idx, i < a.length) (h' : ∀ i ∈ idx, i < b.length) :
    (fancy a idx).zip (fancy b idx) = fancy (a.zip b) idx := by
  induction idx with
  | nil => rfl
  | cons i idx ih =>
    have hi := h i (by simp)
    have hi' := h' i (by simp)
    have hz : (a.zip b)[i]? = some (a[i], b[i]) := by
      rw [List.getElem?_zip_eq_some]; exact ⟨List.getElem?_eq_getElem hi, List.getElem?_eq_getElem hi'⟩
    unfold fancy at ih ⊢
    rw [List.filterMap_cons, List.filterMap_cons, List.filterMap_cons, hz, List.getElem?_eq_getElem hi, List.getElem?_eq_getElem hi']
    simp only [List.zip_cons_cons]
    rw [ih (fun j hj => h j (by simp [hj])) (fun j hj => h' j (by simp [hj]))]

/-! The order of channels is a permutation. -/

theorem sel_length_put_perm (mask : List Bool) (ord vs : List Nat) (h : vs.Perm (sel mask ord)) : (put mask ord vs).Perm ord :=
  put_perm mask ord vs h

theorem sortWin_perm (sF : Argsort K) (freq : List K) (spw : List Int) (ord : List Nat) (w : Int) (hlt : ∀ i ∈ ord, i < freq.length) :
    (sortWin sF freq spw ord w).Perm ord := by
  unfold sortWin
  simp only
  split
  · apply put_perm
    apply fancy_perm
    have hs : ∀ (m : List Bool) (l : List Nat), ∀ i ∈ sel m l, i ∈ l := by
      intro m l
      induction l generalizing m with
      | nil => intro i hi; cases m with
        | nil => simp [sel] at hi
        | cons b m => cases b <;> simp [sel] at hi
      | cons x l ih =>
        intro i hi
        cases m with
        | nil => simp [sel] at hi
        | cons b m =>
          cases b
          · simp only [sel] at hi; exact List.mem_cons_of_mem _ (ih m i hi)
          · simp only [sel, List.mem_cons] at hi
            rcases hi with rfl | hi
            · simp
            · exact List.mem_cons_of_mem _ (ih m i hi)
    refine (argsort_perm' sF _).trans (List.Perm.of_eq ?_)
    rw [fancy_length]
    intro i hi
    exact hlt i (hs _ _ i hi)
  · exact List.Perm.refl _

theorem group_perm (spw spws : List Int) (hn : spws.Nodup) (hm : ∀ w ∈ spw, w ∈ spws) :
    (spws.flatMap (fun w => whereIdx (fun v => decide (v = w)) spw)).Perm (List.range spw.length) := by
  rw [List.perm_ext_iff_of_nodup]
  · intro i
    rw [List.mem_flatMap, List.mem_range]
    constructor
    · rintro ⟨w, -, hi⟩
      rw [mem_whereIdx] at hi
      obtain ⟨x, hx, -⟩ := hi
      exact (List.getElem?_eq_some_iff.1 hx).1
    · intro hi
      refine ⟨spw[i], hm _ (List.getElem_mem hi), ?_⟩
      rw [mem_whereIdx]
      exact ⟨spw[i], List.getElem?_eq_getElem hi, by simp⟩
  · rw [List.nodup_flatMap]
    refine ⟨fun w _ => (whereIdx_sorted _ _).imp (fun h => Nat.ne_of_lt h), ?_⟩
    refine hn.imp ?_
    intro a b hab
    simp only [Function.onFun]
    intro i hi hj
    rw [mem_whereIdx] at hi hj
    obtain ⟨x, hx, hxa⟩ := hi
    obtain ⟨y, hy, hyb⟩ := hj
    simp only [decide_eq_true_eq] at hxa hyb
    rw [hx] at hy
    injection hy with hy
    exact hab (by rw [← hxa, ← hyb, hy])
  · exact List.nodup_range

theorem freqOrder_perm (sF : Argsort K) (freq : List K) (spw spws : List Int) (hl : spw.length = freq.length) (hn : spws.Nodup)
    (hm : ∀ w ∈ spw, w ∈ spws) : (freqOrder sF freq spw spws).Perm (List.range freq.length) := by
  have h0 : ((spws.insertionSort (· ≤ ·)).flatMap (fun w => whereIdx (fun v => decide (v = w)) spw)).Perm (List.range freq.length) := by
    rw [← hl]
    apply group_perm
    · exact (List.perm_insertionSort _ _).symm.nodup hn
    · intro w hw; rw [(List.perm_insertionSort _ _).mem_iff]; exact hm w hw
  have key : ∀ (ws : List Int) (ord : List Nat), ord.Perm (List.range freq.length) →
      (ws.foldl (sortWin sF freq spw) ord).Perm (List.range freq.length) := by
    intro ws
    induction ws with
    | nil => intro ord h; exact h
    | cons w ws ih =>
      intro ord h
      rw [List.foldl_cons]
      exact ih _ ((sortWin_perm sF freq spw ord w (perm_lt h)).trans h)
  exact key spws _ h0

theorem firstAppearance_mem (ids : List Int) (w : Int) : w ∈ firstAppearance ids ↔ w ∈ ids := by
  unfold firstAppearance; simp

theorem firstAppearance_nodup (ids : List Int) : (firstAppearance ids).Nodup := by
  unfold firstAppearance
  rw [List.nodup_reverse]
  exact List.nodup_dedup _

theorem freqPlan_ok (sF : Argsort K) (this other : Obj ρ K V) (h1 : Valid this) (h2 : Valid other) :
    PlanOk this.chan other.chan (freqPlan sF this other) := by
  have hc := commonChan_common this other h1 h2
  have hla : this.chan.length = this.freq.length := by unfold Obj.chan; rw [List.length_zip, h1.spw]; simp
  have hlb : other.chan.length = other.freq.length := by unfold Obj.chan; rw [List.length_zip, h2.spw]; simp
  have e1 : freqOverlap this other this = overlapInds (commonChan this other) this.chan :=
    freqOverlap_eq this other this h1 (fun w f hf => (((inter_common _ _).mem f).1 hf).1)
  have e2 : freqOverlap this other other = overlapInds (commonChan this other) other.chan :=
    freqOverlap_eq this other other h2 (fun w f hf => (((inter_common _ _).mem f).1 hf).2)
  have e3 := freqNew_eq this other h1 h2
  have hr := reordered h1.chan_nodup h2.chan_nodup hc
  rw [hla] at hr
  set perm := reorderInds this.freq.length (overlapInds (commonChan this other) this.chan)
    (overlapInds (commonChan this other) other.chan) with hperm
  have hplt : ∀ i ∈ perm, i < this.freq.length := by rw [← hla]; exact perm_lt hr.isPerm
  have hnlt : ∀ i ∈ newInds this.chan other.chan, i < other.freq.length := by rw [← hlb]; exact newInds_lt _ _
  have hz : (fancy this.spw perm ++ fancy other.spw (newInds this.chan other.chan)).zip
      (fancy this.freq perm ++ fancy other.freq (newInds this.chan other.chan)) =
      fancy this.chan perm ++ fancy other.chan (newInds this.chan other.chan) := by
    rw [List.zip_append]
    · rw [fancy_zip _ _ _ (by rw [h1.spw]; exact hplt) hplt, fancy_zip _ _ _ (by rw [h2.spw]; exact hnlt) hnlt]
      rfl
    · rw [fancy_length _ _ (by rw [h1.spw]; exact hplt), fancy_length _ _ hplt]
  have hpermEq : (freqPlan sF this other).perm = perm := by
    show reorderInds this.freq.length (freqOverlap this other this) (freqOverlap this other other) = perm
    rw [e1, e2]
  have hnewEq : (freqPlan sF this other).new = newInds this.chan other.chan := e3
  refine ⟨h1.chan_nodup, h2.chan_nodup, by rw [hpermEq]; exact hr, hnewEq, ?_, ?_, ?_⟩
  · rw [hpermEq, hnewEq]
    show freqT2o _ _ other = _
    rw [show reorderInds this.freq.length (freqOverlap this other this) (freqOverlap this other other) = perm from hpermEq,
      show freqNew this other = newInds this.chan other.chan from e3, hz]
    unfold freqT2o t2o
    apply strictSorted_ext (whereIdx_sorted _ _) (whereIdx_sorted _ _)
    intro i
    rw [mem_whereIdx, mem_whereIdx]
    apply exists_congr
    rintro ⟨w, f⟩
    apply and_congr_right
    intro hi
    simp only [Bool.and_eq_true, List.contains_iff_mem]
    rw [mem_winFreqs other h2.spw]
    constructor
    · exact fun h => h.2
    · intro h
      refine ⟨⟨?_, (h2.spws w).2 (List.of_mem_zip h).1⟩, h⟩
      unfold padSpws
      split
      · rename_i hnil
        rw [hnil] at hi
        simp only [fancy, List.filterMap_nil, List.append_nil] at hi
        have hmem := List.mem_of_getElem? hi
        have : (w, f) ∈ this.chan := (fancy_perm this.chan perm hr.isPerm).mem_iff.1 hmem
        exact (h1.spws w).2 (List.of_mem_zip this).1
      · rw [firstAppearance_mem]
        have hmem := List.mem_of_getElem? hi
        rw [← hz] at hmem
        exact (List.of_mem_zip hmem).1
  · show (if freqNew this other = [] then List.range this.freq.length else _).Perm _
    rw [hnewEq, hla]
    split
    · rename_i h; rw [e3] at h; rw [h]; simp
    · rename_i hnn
      rw [show reorderInds this.freq.length (freqOverlap this other this) (freqOverlap this other other) = perm from hpermEq,
        show freqNew this other = newInds this.chan other.chan from e3]
      have hlen1 : (fancy this.freq perm ++ fancy other.freq (newInds this.chan other.chan)).length =
          this.freq.length + (newInds this.chan other.chan).length := by
        rw [List.length_append, fancy_length _ _ hplt, fancy_length _ _ hnlt, hr.isPerm.length_eq, hla]; simp
      have hlen2 : (fancy this.spw perm ++ fancy other.spw (newInds this.chan other.chan)).length =
          this.freq.length + (newInds this.chan other.chan).length := by
        rw [List.length_append, fancy_length _ _ (by rw [h1.spw]; exact hplt), fancy_length _ _ (by rw [h2.spw]; exact hnlt),
          hr.isPerm.length_eq, hla]; simp
      have hpad : padSpws this (newInds this.chan other.chan) (fancy this.spw perm ++ fancy other.spw (newInds this.chan other.chan)) =
          firstAppearance (fancy this.spw perm ++ fancy other.spw (newInds this.chan other.chan)) := by
        unfold padSpws
        rw [if_neg (by rw [← e3]; exact hnn)]
      rw [hpad]
      have := freqOrder_perm sF (fancy this.freq perm ++ fancy other.freq (newInds this.chan other.chan))
        (fancy this.spw perm ++ fancy other.spw (newInds this.chan other.chan)) (firstAppearance _) (by rw [hlen1, hlen2])
        (firstAppearance_nodup _) (fun w hw => (firstAppearance_mem _ w).2 hw)
      rw [hlen1] at this
      exact this
  · intro i
    show i ∈ freqOverlap this other this ↔ _
    rw [e1]
    exact overlap_mem h1.chan_nodup hc i

end Verif.Add
