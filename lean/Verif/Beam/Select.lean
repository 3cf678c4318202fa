import Verif.Beam.Spec
import Verif.Add.Axis

/-! Selecting parts of beam objects. -/
namespace Verif.Beam
open Verif.Np Verif.FreqSort Verif.Add

variable {K V B C X : Type}

theorem fancy_at {α : Type} (L : List α) (inds : List Nat) (h : ∀ i ∈ inds, i < L.length) (P : Nat → Prop) (x : α) :
    (∃ l : Nat, (fancy L inds)[l]? = some x ∧ P (inds.getD l 0)) ↔ ∃ l : Nat, L[l]? = some x ∧ l ∈ inds ∧ P l := by
  constructor
  · rintro ⟨l, h1, h2⟩
    rw [fancy_get L inds h, Option.bind_eq_some_iff] at h1
    obtain ⟨i, hi, hx⟩ := h1
    refine ⟨i, hx, List.mem_of_getElem? hi, ?_⟩
    rw [List.getD_eq_getElem?_getD, hi] at h2
    exact h2
  · rintro ⟨i, hx, hi, hp⟩
    obtain ⟨l, hl⟩ := List.getElem?_of_mem hi
    refine ⟨l, ?_, ?_⟩
    · rw [fancy_get L inds h, hl]; exact hx
    · rw [List.getD_eq_getElem?_getD, hl]; exact hp

/-- Positions that pick the labels with a property, in order. -/
structure AxisSel {α : Type} (L : List α) (inds : List Nat) (S : α → Prop) : Prop where
  lt : ∀ i ∈ inds, i < L.length
  sorted : inds.Pairwise (· < ·)
  pick : ∀ (i : Nat) (x : α), L[i]? = some x → (i ∈ inds ↔ S x)

variable {α : Type} {L : List α} {inds : List Nat} {S : α → Prop}

theorem AxisSel.at (h : AxisSel L inds S) (P : Nat → Prop) (x : α) :
    (∃ l : Nat, (fancy L inds)[l]? = some x ∧ P (inds.getD l 0)) ↔ (∃ l : Nat, L[l]? = some x ∧ P l) ∧ S x := by
  rw [fancy_at L inds h.lt]
  constructor
  · rintro ⟨l, h1, h2, h3⟩
    exact ⟨⟨l, h1, h3⟩, (h.pick l x h1).1 h2⟩
  · rintro ⟨⟨l, h1, h3⟩, h2⟩
    exact ⟨l, h1, (h.pick l x h1).2 h2, h3⟩

theorem AxisSel.mem (h : AxisSel L inds S) (x : α) : x ∈ fancy L inds ↔ x ∈ L ∧ S x := by
  have := h.at (fun _ => True) x
  simp only [and_true] at this
  rw [List.mem_iff_getElem?, this, ← List.mem_iff_getElem?]

theorem AxisSel.sublist (h : AxisSel L inds S) : (fancy L inds).Sublist L := by
  have : inds.Sublist (List.range L.length) := by
    have e : inds = (List.range L.length).filter (fun i => decide (i ∈ inds)) := by
      apply strictSorted_ext h.sorted (range_filter_sorted _ _)
      intro i
      simp only [List.mem_filter, List.mem_range, decide_eq_true_eq]
      exact ⟨fun hi => ⟨h.lt i hi, hi⟩, fun hi => hi.2⟩
    rw [e]
    exact List.filter_sublist
  have h2 := this.filterMap (fun i => L[i]?)
  have e := fancy_range L
  unfold fancy at e ⊢
  rwa [e] at h2

theorem axisInds_sel (hn : L.Nodup) {l : List Int} (h : axisInds L.length l = .ok inds) :
    AxisSel L inds (fun x => ∃ i ∈ l, 0 ≤ i ∧ L[i.toNat]? = some x) := by
  unfold axisInds at h
  split at h
  · cases h
  · split at h
    · cases h
    · rename_i hl hr
      cases h
      have hr' : ∀ i ∈ l, 0 ≤ i ∧ i < L.length := by
        intro i hi
        simp only [List.any_eq_true, not_exists, not_and, Bool.or_eq_true, decide_eq_true_eq, not_or] at hr
        have := hr i hi
        omega
      refine ⟨?_, unique_sorted _, ?_⟩
      · intro i hi
        rw [mem_unique, List.mem_map] at hi
        obtain ⟨j, hj, rfl⟩ := hi
        have := hr' j hj
        omega
      · intro i x hx
        rw [mem_unique, List.mem_map]
        constructor
        · rintro ⟨j, hj, rfl⟩
          exact ⟨j, hj, (hr' j hj).1, hx⟩
        · rintro ⟨j, hj, -, hjx⟩
          refine ⟨j, hj, ?_⟩
          exact ((List.getElem?_inj (List.getElem?_eq_some_iff.1 hx).1 hn).1 (hx.trans hjx.symm)).symm

theorem findInds_mem [DecidableEq α] {l : List α} (h : findInds L l = .ok inds) (i : Nat) : i ∈ inds ↔ ∃ x, L[i]? = some x ∧ x ∈ l := by
  unfold findInds at h
  split at h
  · cases h
  · cases h
    rw [List.mem_flatMap]
    constructor
    · rintro ⟨w, hw, hi⟩
      rw [mem_whereIdx] at hi
      obtain ⟨x, hx, hxw⟩ := hi
      rw [decide_eq_true_eq] at hxw
      exact ⟨x, hx, by rw [hxw]; exact hw⟩
    · rintro ⟨x, hx, hl⟩
      exact ⟨x, hl, mem_whereIdx.2 ⟨x, hx, by simp⟩⟩

theorem findInds_all [DecidableEq α] {l : List α} (h : findInds L l = .ok inds) : ∀ w ∈ l, w ∈ L := by
  unfold findInds at h
  split at h
  · cases h
  · rename_i hm
    intro w hw
    simp only [List.any_eq_true, not_exists, not_and, Bool.not_eq_true', List.contains_eq_mem, decide_eq_false_iff_not, not_not] at hm
    exact hm w hw

theorem findInds_sel [DecidableEq α] {l : List α} (h : findInds L l = .ok inds) : AxisSel L (unique inds) (fun x => x ∈ l) := by
  refine ⟨?_, unique_sorted _, ?_⟩
  · intro i hi
    rw [mem_unique, findInds_mem h] at hi
    obtain ⟨x, hx, -⟩ := hi
    exact (List.getElem?_eq_some_iff.1 hx).1
  · intro i x hx
    rw [mem_unique, findInds_mem h]
    constructor
    · rintro ⟨y, hy, hl⟩
      rw [hx] at hy
      cases hy
      exact hl
    · intro hl
      exact ⟨x, hx, hl⟩

/-! ### Parts -/

theorem Part.refl (o : Obj K V B C X) : Part o o (fun _ => True) (fun _ => True) (fun _ => True) (fun _ => True) where
  power := rfl
  healpix := rfl
  pols := ⟨List.Sublist.refl _, by simp⟩
  freqs := ⟨List.Sublist.refl _, by simp⟩
  ax2 := ⟨List.Sublist.refl _, by simp⟩
  ax1 := ⟨List.Sublist.refl _, by simp⟩
  data := by simp
  band := by simp
  extra := by simp
  basis := by simp
  present := ⟨rfl, rfl, rfl⟩
  coupling := by simp

theorem Part.distinct {o r : Obj K V B C X} {SP SF S2 S1} (h : Part o r SP SF S2 S1) (hd : Distinct o) : Distinct r :=
  ⟨h.pols.1.nodup hd.pols, h.freqs.1.nodup hd.freqs, h.ax2.1.nodup hd.ax2, h.ax1.1.nodup hd.ax1⟩

theorem Part.trans {o r t : Obj K V B C X} {SP SF S2 S1} {SP' SF' S2' S1'} (h : Part o r SP SF S2 S1) (h' : Part r t SP' SF' S2' S1') :
    Part o t (fun p => SP p ∧ SP' p) (fun f => SF f ∧ SF' f) (fun y => S2 y ∧ S2' y) (fun x => S1 x ∧ S1' x) where
  power := h'.power.trans h.power
  healpix := h'.healpix.trans h.healpix
  pols := ⟨h'.pols.1.trans h.pols.1, fun p => by rw [h'.pols.2, h.pols.2, and_assoc]⟩
  freqs := ⟨h'.freqs.1.trans h.freqs.1, fun p => by rw [h'.freqs.2, h.freqs.2, and_assoc]⟩
  ax2 := ⟨h'.ax2.1.trans h.ax2.1, fun p => by rw [h'.ax2.2, h.ax2.2, and_assoc]⟩
  ax1 := ⟨h'.ax1.1.trans h.ax1.1, fun p => by rw [h'.ax1.2, h.ax1.2, and_assoc]⟩
  data := fun p f y x v => by rw [h'.data, h.data]; tauto
  band := fun f b => by rw [h'.band, h.band, and_assoc]
  extra := fun f b => by rw [h'.extra, h.extra, and_assoc]
  basis := fun hp y x b => by rw [h'.basis (by rw [h.power, hp]), h.basis hp]; tauto
  present := ⟨h'.present.1.trans h.present.1, h'.present.2.1.trans h.present.2.1, h'.present.2.2.trans h.present.2.2⟩
  coupling := fun p p' f c => by rw [h'.coupling, h.coupling]; tauto

theorem Part.congr {o r : Obj K V B C X} {SP SF S2 S1} {SP' SF' S2' S1'} (h : Part o r SP SF S2 S1) (eP : ∀ p ∈ o.pols, SP p ↔ SP' p)
    (eF : ∀ f ∈ o.freqs, SF f ↔ SF' f) (e2 : ∀ y ∈ o.ax2, S2 y ↔ S2' y) (e1 : ∀ x ∈ o.ax1, S1 x ↔ S1' x) : Part o r SP' SF' S2' S1' where
  power := h.power
  healpix := h.healpix
  pols := ⟨h.pols.1, fun p => by rw [h.pols.2]; exact and_congr_right (eP p)⟩
  freqs := ⟨h.freqs.1, fun p => by rw [h.freqs.2]; exact and_congr_right (eF p)⟩
  ax2 := ⟨h.ax2.1, fun p => by rw [h.ax2.2]; exact and_congr_right (e2 p)⟩
  ax1 := ⟨h.ax1.1, fun p => by rw [h.ax1.2]; exact and_congr_right (e1 p)⟩
  data := fun p f y x v => by
    rw [h.data]
    refine and_congr_right fun ⟨i, j, k, l, h1, h2, h3, h4, _⟩ => ?_
    rw [eP p (List.mem_of_getElem? h1), eF f (List.mem_of_getElem? h2), e2 y (List.mem_of_getElem? h3), e1 x (List.mem_of_getElem? h4)]
  band := fun f b => by
    rw [h.band]
    exact and_congr_right fun ⟨j, h1, _⟩ => eF f (List.mem_of_getElem? h1)
  extra := fun f b => by
    rw [h.extra]
    exact and_congr_right fun ⟨g, _, j, h1, _⟩ => eF f (List.mem_of_getElem? h1)
  basis := fun hp y x b => by
    rw [h.basis hp]
    refine and_congr_right fun ⟨g, _, k, l, h1, h2, _⟩ => ?_
    rw [e2 y (List.mem_of_getElem? h1), e1 x (List.mem_of_getElem? h2)]
  present := h.present
  coupling := fun p p' f c => by
    rw [h.coupling]
    refine and_congr_right fun ⟨g, _, i, i', j, h1, h2, h3, _⟩ => ?_
    rw [eP p (List.mem_of_getElem? h1), eP p' (List.mem_of_getElem? h2), eF f (List.mem_of_getElem? h3)]

theorem takeAx1_part (o : Obj K V B C X) {inds : List Nat} {S : K → Prop} (h : AxisSel o.ax1 inds S) :
    Part o (o.takeAx1 inds) (fun _ => True) (fun _ => True) (fun _ => True) S := by
  refine ⟨rfl, rfl, ⟨List.Sublist.refl _, by simp [Obj.takeAx1]⟩, ⟨List.Sublist.refl _, by simp [Obj.takeAx1]⟩, ⟨List.Sublist.refl _, by simp [Obj.takeAx1]⟩, ⟨h.sublist, h.mem⟩, ?_, ?_, ?_, ?_, ?_, ?_⟩
  · intro p f y x v
    unfold Has Obj.takeAx1
    simp only [true_and]
    constructor
    · rintro ⟨i, j, k, l, h1, h2, h3, h4, h5⟩
      obtain ⟨⟨l', h6, h7⟩, h8⟩ := (h.at (fun l => o.data i j k l = v) x).1 ⟨l, h4, h5⟩
      exact ⟨⟨i, j, k, l', h1, h2, h3, h6, h7⟩, h8⟩
    · rintro ⟨⟨i, j, k, l, h1, h2, h3, h4, h5⟩, h8⟩
      obtain ⟨l', h6, h7⟩ := (h.at (fun l => o.data i j k l = v) x).2 ⟨⟨l, h4, h5⟩, h8⟩
      exact ⟨i, j, k, l', h1, h2, h3, h6, h7⟩
  · intro f b; simp [HasBand, Obj.takeAx1]
  · intro f b; simp [HasExtra, Obj.takeAx1]
  · intro hp y x b
    unfold HasBasis Obj.takeAx1
    simp only [hp, Bool.false_eq_true, if_false, Option.map_eq_some_iff, true_and]
    constructor
    · rintro ⟨g, ⟨g', hg, rfl⟩, k, l, h1, h2, h3⟩
      obtain ⟨⟨l', h6, h7⟩, h8⟩ := (h.at (fun l => g'.2.2 k l = b) x).1 ⟨l, h2, h3⟩
      exact ⟨⟨g', hg, k, l', h1, h6, h7⟩, h8⟩
    · rintro ⟨⟨g, hg, k, l, h1, h2, h3⟩, h8⟩
      obtain ⟨l', h6, h7⟩ := (h.at (fun l => g.2.2 k l = b) x).2 ⟨⟨l, h2, h3⟩, h8⟩
      exact ⟨_, ⟨g, hg, rfl⟩, k, l', h1, h6, h7⟩
  · refine ⟨rfl, ?_, rfl⟩
    unfold Obj.takeAx1
    cases o.power <;> simp
  · intro p p' f c; simp [HasCoupling, Obj.takeAx1]

theorem takeAx2_part (o : Obj K V B C X) {inds : List Nat} {S : K → Prop} (h : AxisSel o.ax2 inds S) :
    Part o (o.takeAx2 inds) (fun _ => True) (fun _ => True) S (fun _ => True) := by
  refine ⟨rfl, rfl, ⟨List.Sublist.refl _, by simp [Obj.takeAx2]⟩, ⟨List.Sublist.refl _, by simp [Obj.takeAx2]⟩, ⟨h.sublist, h.mem⟩, ⟨List.Sublist.refl _, by simp [Obj.takeAx2]⟩, ?_, ?_, ?_, ?_, ?_, ?_⟩
  · intro p f y x v
    unfold Has Obj.takeAx2
    simp only [true_and, and_true]
    constructor
    · rintro ⟨i, j, k, l, h1, h2, h3, h4, h5⟩
      obtain ⟨⟨l', h6, h7⟩, h8⟩ := (h.at (fun k => o.data i j k l = v) y).1 ⟨k, h3, h5⟩
      exact ⟨⟨i, j, l', l, h1, h2, h6, h4, h7⟩, h8⟩
    · rintro ⟨⟨i, j, k, l, h1, h2, h3, h4, h5⟩, h8⟩
      obtain ⟨l', h6, h7⟩ := (h.at (fun k => o.data i j k l = v) y).2 ⟨⟨k, h3, h5⟩, h8⟩
      exact ⟨i, j, l', l, h1, h2, h6, h4, h7⟩
  · intro f b; simp [HasBand, Obj.takeAx2]
  · intro f b; simp [HasExtra, Obj.takeAx2]
  · intro hp y x b
    unfold HasBasis Obj.takeAx2
    simp only [hp, Bool.false_eq_true, if_false, Option.map_eq_some_iff, and_true]
    constructor
    · rintro ⟨g, ⟨g', hg, rfl⟩, k, l, h1, h2, h3⟩
      obtain ⟨⟨l', h6, h7⟩, h8⟩ := (h.at (fun k => g'.2.2 k l = b) y).1 ⟨k, h1, h3⟩
      exact ⟨⟨g', hg, l', l, h6, h2, h7⟩, h8⟩
    · rintro ⟨⟨g, hg, k, l, h1, h2, h3⟩, h8⟩
      obtain ⟨l', h6, h7⟩ := (h.at (fun k => g.2.2 k l = b) y).2 ⟨⟨k, h1, h3⟩, h8⟩
      exact ⟨_, ⟨g, hg, rfl⟩, l', l, h6, h2, h7⟩
  · refine ⟨rfl, ?_, rfl⟩
    unfold Obj.takeAx2
    cases o.power <;> simp
  · intro p p' f c; simp [HasCoupling, Obj.takeAx2]

theorem takeFreqs_part (o : Obj K V B C X) {inds : List Nat} {S : K → Prop} (h : AxisSel o.freqs inds S) :
    Part o (o.takeFreqs inds) (fun _ => True) S (fun _ => True) (fun _ => True) := by
  refine ⟨rfl, rfl, ⟨List.Sublist.refl _, by simp [Obj.takeFreqs]⟩, ⟨h.sublist, h.mem⟩, ⟨List.Sublist.refl _, by simp [Obj.takeFreqs]⟩, ⟨List.Sublist.refl _, by simp [Obj.takeFreqs]⟩, ?_, ?_, ?_, ?_, ?_, ?_⟩
  · intro p f y x v
    unfold Has Obj.takeFreqs
    simp only [true_and, and_true]
    constructor
    · rintro ⟨i, j, k, l, h1, h2, h3, h4, h5⟩
      obtain ⟨⟨l', h6, h7⟩, h8⟩ := (h.at (fun j => o.data i j k l = v) f).1 ⟨j, h2, h5⟩
      exact ⟨⟨i, l', k, l, h1, h6, h3, h4, h7⟩, h8⟩
    · rintro ⟨⟨i, j, k, l, h1, h2, h3, h4, h5⟩, h8⟩
      obtain ⟨l', h6, h7⟩ := (h.at (fun j => o.data i j k l = v) f).2 ⟨⟨j, h2, h5⟩, h8⟩
      exact ⟨i, l', k, l, h1, h6, h3, h4, h7⟩
  · intro f b
    exact h.at (fun j => o.bandpass j = b) f
  · intro f b
    unfold HasExtra Obj.takeFreqs
    simp only [Option.map_eq_some_iff]
    constructor
    · rintro ⟨g, ⟨g', hg, rfl⟩, j, h1, h2⟩
      obtain ⟨⟨l', h6, h7⟩, h8⟩ := (h.at (fun j => g' j = b) f).1 ⟨j, h1, h2⟩
      exact ⟨⟨g', hg, l', h6, h7⟩, h8⟩
    · rintro ⟨⟨g, hg, j, h1, h2⟩, h8⟩
      obtain ⟨l', h6, h7⟩ := (h.at (fun j => g j = b) f).2 ⟨⟨j, h1, h2⟩, h8⟩
      exact ⟨_, ⟨g, hg, rfl⟩, l', h6, h7⟩
  · intro hp y x b; simp [HasBasis, Obj.takeFreqs]
  · exact ⟨by simp [Obj.takeFreqs], rfl, by simp [Obj.takeFreqs]⟩
  · intro p p' f c
    unfold HasCoupling Obj.takeFreqs
    simp only [Option.map_eq_some_iff, true_and]
    constructor
    · rintro ⟨g, ⟨g', hg, rfl⟩, i, i', j, h1, h2, h3, h4⟩
      obtain ⟨⟨l', h6, h7⟩, h8⟩ := (h.at (fun j => g' i i' j = c) f).1 ⟨j, h3, h4⟩
      exact ⟨⟨g', hg, i, i', l', h1, h2, h6, h7⟩, h8⟩
    · rintro ⟨⟨g, hg, i, i', j, h1, h2, h3, h4⟩, h8⟩
      obtain ⟨l', h6, h7⟩ := (h.at (fun j => g i i' j = c) f).2 ⟨⟨j, h3, h4⟩, h8⟩
      exact ⟨_, ⟨g, hg, rfl⟩, i, i', l', h1, h2, h6, h7⟩

/-- Taking feeds. -/
theorem takeFeeds_part (o : Obj K V B C X) {inds : List Nat} {S : Int → Prop} (h : AxisSel o.pols inds S) :
    Part o { o with
      pols := fancy o.pols inds
      npol := inds.length
      data := fun i j k l => o.data (inds.getD i 0) j k l
      coupling := o.coupling.map (fun c i i' j => c (inds.getD i 0) (inds.getD i' 0) j) } S (fun _ => True) (fun _ => True) (fun _ => True) := by
  refine ⟨rfl, rfl, ⟨h.sublist, h.mem⟩, ⟨List.Sublist.refl _, by simp⟩, ⟨List.Sublist.refl _, by simp⟩, ⟨List.Sublist.refl _, by simp⟩, ?_, ?_, ?_, ?_, ?_, ?_⟩
  · intro p f y x v
    unfold Has
    simp only [and_true]
    constructor
    · rintro ⟨i, j, k, l, h1, h2, h3, h4, h5⟩
      obtain ⟨⟨l', h6, h7⟩, h8⟩ := (h.at (fun i => o.data i j k l = v) p).1 ⟨i, h1, h5⟩
      exact ⟨⟨l', j, k, l, h6, h2, h3, h4, h7⟩, h8⟩
    · rintro ⟨⟨i, j, k, l, h1, h2, h3, h4, h5⟩, h8⟩
      obtain ⟨l', h6, h7⟩ := (h.at (fun i => o.data i j k l = v) p).2 ⟨⟨i, h1, h5⟩, h8⟩
      exact ⟨l', j, k, l, h6, h2, h3, h4, h7⟩
  · intro f b; simp [HasBand]
  · intro f b; simp [HasExtra]
  · intro hp y x b; simp [HasBasis]
  · exact ⟨rfl, rfl, by simp⟩
  · intro p p' f c
    unfold HasCoupling
    simp only [Option.map_eq_some_iff, and_true]
    constructor
    · rintro ⟨g, ⟨g', hg, rfl⟩, i, i', j, h1, h2, h3, h4⟩
      obtain ⟨⟨l, h5, h6⟩, h7⟩ := (h.at (fun i => g' i (inds.getD i' 0) j = c) p).1 ⟨i, h1, h4⟩
      obtain ⟨⟨l', h8, h9⟩, h10⟩ := (h.at (fun i' => g' l i' j = c) p').1 ⟨i', h2, h6⟩
      exact ⟨⟨g', hg, l, l', j, h5, h8, h3, h9⟩, h7, h10⟩
    · rintro ⟨⟨g, hg, i, i', j, h1, h2, h3, h4⟩, h7, h8⟩
      obtain ⟨l', h5, h6⟩ := (h.at (fun i' => g i i' j = c) p').2 ⟨⟨i', h2, h4⟩, h8⟩
      obtain ⟨l, h9, h10⟩ := (h.at (fun i => g i (inds.getD l' 0) j = c) p).2 ⟨⟨i, h1, h6⟩, h7⟩
      exact ⟨_, ⟨g, hg, rfl⟩, l, l', j, h9, h5, h3, h10⟩

/-! ### Polarizations -/

/-- For distinct labels, looking them up one after the other gives them back. -/
theorem findInds_labels [DecidableEq α] (hn : L.Nodup) : ∀ {l : List α} {inds : List Nat}, findInds L l = .ok inds → fancy L inds = l ∧ inds = l.map L.idxOf := by
  intro l inds h
  have hall := findInds_all h
  have e : inds = l.map L.idxOf := by
    unfold findInds at h
    split at h
    · cases h
    · cases h
      clear * - hn hall
      induction l with
      | nil => rfl
      | cons w l ih =>
        rw [List.flatMap_cons, List.map_cons, ih (fun x hx => hall x (by simp [hx]))]
        have hw := hall w (by simp)
        have : whereIdx (fun x => decide (x = w)) L = [L.idxOf w] := by
          apply strictSorted_ext (whereIdx_sorted _ _) (by simp)
          intro i
          rw [mem_whereIdx, List.mem_singleton]
          constructor
          · rintro ⟨x, hx, hxw⟩
            rw [decide_eq_true_eq] at hxw
            subst hxw
            have := List.getElem?_idxOf hw
            exact (List.getElem?_inj (List.getElem?_eq_some_iff.1 hx).1 hn).1 (hx.trans this.symm)
          · rintro rfl
            exact ⟨w, List.getElem?_idxOf hw, by simp⟩
        rw [this]
        rfl
  refine ⟨?_, e⟩
  rw [e]
  unfold fancy
  rw [List.filterMap_map]
  clear * - hall
  induction l with
  | nil => rfl
  | cons w l ih =>
    rw [List.filterMap_cons]
    simp only [Function.comp_apply]
    rw [List.getElem?_idxOf (hall w (by simp))]
    exact congrArg (w :: ·) (ih (fun x hx => hall x (by simp [hx])))

/-- The labels in the order of the object. -/
theorem findInds_sorted [DecidableEq α] {l : List α} {inds : List Nat} (h : findInds L l = .ok inds) :
    fancy L (unique inds) = L.filter (fun x => decide (x ∈ l)) := by
  rw [← fancy_where]
  congr 1
  apply strictSorted_ext (unique_sorted _) (whereIdx_sorted _ _)
  intro i
  rw [mem_unique, findInds_mem h, mem_whereIdx]
  simp

theorem sublist_filter [DecidableEq α] (hn : L.Nodup) {l : List α} (hs : l.Sublist L) : L.filter (fun x => decide (x ∈ l)) = l := by
  induction hs with
  | slnil => rfl
  | @cons l L a h ih =>
    rw [List.nodup_cons] at hn
    rw [List.filter_cons_of_neg, ih hn.2]
    simp only [decide_eq_true_eq]
    exact fun ha => hn.1 (h.subset ha)
  | @cons_cons l L a h ih =>
    rw [List.nodup_cons] at hn
    rw [List.filter_cons_of_pos (by simp)]
    congr 1
    rw [← ih hn.2]
    apply List.filter_congr
    intro x hx
    have : x ≠ a := fun hxa => hn.1 (by rw [← hxa]; exact hx)
    rw [ih hn.2]
    simp [this]

end Verif.Beam
