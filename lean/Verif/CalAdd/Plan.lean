import Verif.CalAdd.Range

/-! What is done along each axis of two calibration objects. -/
namespace Verif.CalAdd
open Verif.Np Verif.FreqSort Verif.Add

variable {K R V Q : Type} [LinearOrder K]

/-- The labels of the second axis: a window, or a window and a frequency. -/
def Obj.lab (o : Obj K R V Q) : List (Int × Option K) :=
  if o.wide then o.spws.map (fun w => (w, none)) else (o.ids.zip o.freq).map (fun c => (c.1, some c.2))

/-- A calibration object whose labels are distinct. -/
structure Valid (o : Obj K R V Q) : Prop where
  ants : o.ants.Nodup
  keys : o.keys.Nodup
  jones : o.jones.Nodup
  spws : o.spws.Nodup
  ids : o.wide = false → o.ids.length = o.freq.length
  width : o.wide = false → o.width.length = o.freq.length
  chan : o.wide = false → (o.ids.zip o.freq).Nodup
  listed : o.wide = false → ∀ w, w ∈ o.spws ↔ w ∈ o.ids
  ranges : o.wide = true → o.ranges.length = o.spws.length
  flex : ∀ j, o.flexJones = some j → j.length = o.spws.length
  stops : o.ranged = true → ∀ r ∈ o.times, ∃ s, r.stop = some s ∧ r.time < s

theorem axisPlan_ok {κ : Type} [LinearOrder κ] (order : List κ → List Nat) (ho : ∀ l, (order l).Perm (List.range l.length)) {A B : List κ}
    (h1 : A.Nodup) (h2 : B.Nodup) : PlanOk A B (axisPlan order A B) := by
  have hr := reordered h1 h2 (inter_common A B)
  have hl : (fancy B (newInds A B)).length = (newInds A B).length := fancy_length _ _ (newInds_lt _ _)
  refine ⟨h1, h2, hr, rfl, rfl, ?_, fun i => overlap_mem h1 (inter_common _ _) i⟩
  unfold axisPlan
  simp only
  split
  · rename_i h; rw [h]; simp
  · have := ho (fancy A (reorderInds A.length (overlapInds (inter A B) A) (overlapInds (inter A B) B)) ++ fancy B (newInds A B))
    rw [List.length_append, hl, fancy_length A _ (perm_lt hr.isPerm), hr.isPerm.length_eq, List.length_range] at this
    exact this

/-- The other overlap indices. -/
theorem axisPlan_ib {κ : Type} [LinearOrder κ] (order : List κ → List Nat) {A B : List κ} (h2 : B.Nodup) (i : Nat) :
    i ∈ (axisPlan order A B).ib ↔ ∃ x, B[i]? = some x ∧ x ∈ A :=
  overlap_mem h2 (common_symm (inter_common A B)) i

theorem whereIdx_map {α β : Type} (f : α → β) (p : β → Bool) (l : List α) : whereIdx p (l.map f) = whereIdx (fun x => p (f x)) l := by
  apply strictSorted_ext (whereIdx_sorted _ _) (whereIdx_sorted _ _)
  intro i
  rw [mem_whereIdx, mem_whereIdx]
  simp only [List.getElem?_map, Option.map_eq_some_iff]
  constructor
  · rintro ⟨y, ⟨x, hx, rfl⟩, hp⟩
    exact ⟨x, hx, hp⟩
  · rintro ⟨x, hx, hp⟩
    exact ⟨f x, ⟨x, hx, rfl⟩, hp⟩

/-- Labels may be renamed. -/
theorem PlanOk.rename {κ μ : Type} [DecidableEq κ] [DecidableEq μ] {A B : List κ} {p : Plan} (h : PlanOk A B p) (f : κ → μ) (hf : Function.Injective f) :
    PlanOk (A.map f) (B.map f) p := by
  have hc : ∀ (l : List κ) x, (l.map f).contains (f x) = l.contains x := by
    intro l x
    rw [Bool.eq_iff_iff, List.contains_iff_mem, List.contains_iff_mem, List.mem_map_of_injective hf]
  have hget : ∀ (l : List κ) (C : List κ) (i : Nat), (∃ y, (l.map f)[i]? = some y ∧ y ∈ C.map f) ↔ ∃ x, l[i]? = some x ∧ x ∈ C := by
    intro l C i
    constructor
    · rintro ⟨y, h1, h2⟩
      rw [List.getElem?_map, Option.map_eq_some_iff] at h1
      obtain ⟨x, hx, rfl⟩ := h1
      exact ⟨x, hx, (List.mem_map_of_injective hf).1 h2⟩
    · rintro ⟨x, h1, h2⟩
      exact ⟨f x, by rw [List.getElem?_map, h1]; rfl, (List.mem_map_of_injective hf).2 h2⟩
  have hfilter : ∀ (l C : List κ), (l.map f).filter (fun x => (C.map f).contains x) = (l.filter (fun x => C.contains x)).map f := by
    intro l C
    rw [List.filter_map]
    congr 1
    apply List.filter_congr
    intro x _
    exact hc C x
  refine ⟨h.nodupA.map hf, h.nodupB.map hf, ⟨?_, ?_, ?_⟩, ?_, ?_, ?_, ?_⟩
  · rw [List.length_map]; exact h.reord.isPerm
  · intro i
    rw [Add.fancy_map_comm, hget, hget]
    exact h.reord.places i
  · rw [Add.fancy_map_comm, hfilter, hfilter, h.reord.order]
  · rw [h.new]
    unfold newInds
    rw [whereIdx_map]
    congr 1
    funext x
    rw [hc]
  · rw [h.t2o, Add.fancy_map_comm, Add.fancy_map_comm, ← List.map_append]
    unfold t2o
    rw [whereIdx_map]
    congr 1
    funext x
    rw [hc]
  · rw [List.length_map]; exact h.order
  · intro i
    rw [hget]
    exact h.ia i

theorem overlapFirst_map {κ μ : Type} [DecidableEq κ] [DecidableEq μ] {A B : List κ} (f : κ → μ) (hf : Function.Injective f) :
    OverlapFirst (A.map f) (B.map f) ↔ OverlapFirst A B := by
  have hc : ∀ (l : List κ) x, (l.map f).contains (f x) = l.contains x := by
    intro l x
    rw [Bool.eq_iff_iff, List.contains_iff_mem, List.contains_iff_mem, List.mem_map_of_injective hf]
  unfold OverlapFirst
  rw [List.filter_map, List.filter_map, ← List.map_append, (List.map_injective_iff.2 hf).eq_iff]
  have : ((fun x => (A.map f).contains x) ∘ f) = fun x => A.contains x := by funext x; exact hc A x
  rw [this]
  have : ((fun x => !(A.map f).contains x) ∘ f) = fun x => !A.contains x := by funext x; simp only [Function.comp_apply]; rw [hc A x]
  rw [this]

section
variable (so : Sorts K) {this other : Obj K R V Q}

theorem antPlan_ok (h1 : Valid this) (h2 : Valid other) : PlanOk this.ants other.ants (antPlan so this other) :=
  axisPlan_ok _ (fun l => (so.int.sorts l).1) h1.ants h2.ants

theorem jonesPlan_ok (h1 : Valid this) (h2 : Valid other) : PlanOk this.jones other.jones (jonesPlan so this other) :=
  axisPlan_ok _ (fun l => by simpa using (so.int.sorts (l.map (fun j => |j|))).1) h1.jones h2.jones

theorem widePlan_ok (h1 : Valid this) (h2 : Valid other) : PlanOk this.spws other.spws (widePlan so this other) :=
  axisPlan_ok _ (fun l => (so.int.sorts l).1) h1.spws h2.spws

theorem chans_valid (h : Valid this) (hw : this.wide = false) : Add.Valid this.chans where
  uvw := rfl
  lst := rfl
  pc := rfl
  spw := h.ids hw
  width := h.width hw
  spws := h.listed hw
  blt_nodup := List.nodup_nil
  chan_nodup := h.chan hw
  pol_nodup := List.nodup_nil

theorem sortedWins_mem (ids : List Int) (w : Int) : w ∈ sortedWins ids ↔ w ∈ ids := by
  unfold sortedWins
  rw [(List.perm_insertionSort _ _).mem_iff, firstAppearance_mem]

theorem sortedWins_nodup (ids : List Int) : (sortedWins ids).Nodup := (List.perm_insertionSort _ _).symm.nodup (firstAppearance_nodup ids)

theorem chanPlan_ok (h1 : Valid this) (h2 : Valid other) (w1 : this.wide = false) (w2 : other.wide = false) :
    PlanOk (this.ids.zip this.freq) (other.ids.zip other.freq) (chanPlan so this other) := by
  have h := Add.freqPlan_ok so.num this.chans other.chans (chans_valid h1 w1) (chans_valid h2 w2)
  have l1 : (this.ids.zip this.freq).length = this.freq.length := by rw [List.length_zip, h1.ids w1]; simp
  have l2 : (other.ids.zip other.freq).length = other.freq.length := by rw [List.length_zip, h2.ids w2]; simp
  refine ⟨h.nodupA, h.nodupB, h.reord, h.new, h.t2o, ?_, h.ia⟩
  have hp : ∀ i ∈ (Add.freqPlan so.num this.chans other.chans).perm, i < this.freq.length := by
    rw [← l1]; exact perm_lt h.reord.isPerm
  have hn : ∀ i ∈ (Add.freqPlan so.num this.chans other.chans).new, i < other.freq.length := by
    rw [h.new, ← l2]; exact newInds_lt _ _
  have hpl : (Add.freqPlan so.num this.chans other.chans).perm.length = this.freq.length := by
    rw [h.reord.isPerm.length_eq, List.length_range]; exact l1
  unfold chanPlan
  simp only
  rw [l1]
  split
  · rename_i hnil; rw [hnil]; simp
  · have hfo := freqOrder_perm so.num
      (fancy this.freq (Add.freqPlan so.num this.chans other.chans).perm ++ fancy other.freq (Add.freqPlan so.num this.chans other.chans).new)
      (fancy this.ids (Add.freqPlan so.num this.chans other.chans).perm ++ fancy other.ids (Add.freqPlan so.num this.chans other.chans).new)
      (sortedWins _) (by
        rw [List.length_append, List.length_append, fancy_length _ _ (by rw [h1.ids w1]; exact hp), fancy_length _ _ (by rw [h2.ids w2]; exact hn),
          fancy_length _ _ hp, fancy_length _ _ hn]) (sortedWins_nodup _) (fun w hw => (sortedWins_mem _ w).2 hw)
    rw [List.length_append (as := fancy this.freq _), fancy_length _ _ hp, fancy_length _ _ hn, hpl] at hfo
    exact hfo

theorem freqPlan_ok (h1 : Valid this) (h2 : Valid other) (hw : this.wide = other.wide) : PlanOk this.lab other.lab (freqPlan so this other) := by
  unfold Obj.lab freqPlan
  rw [← hw]
  cases hb : this.wide with
  | true =>
    simp only [if_true]
    exact PlanOk.rename (widePlan_ok so h1 h2) _ (fun a b h => by simpa using h)
  | false =>
    simp only [Bool.false_eq_true, if_false]
    exact PlanOk.rename (chanPlan_ok so h1 h2 hb (by rw [← hw]; exact hb)) _ (fun a b h => by
      simp only [Prod.mk.injEq, Option.some.injEq] at h
      exact Prod.ext h.1 h.2)

omit [LinearOrder K] in
theorem ranges_of (o : Obj K R V Q) (k : Nat) (r : Row K R) (h : o.times[k]? = some r) : o.timeRanges[k]? = some (r.time, r.stop.getD r.time) := by
  unfold Obj.timeRanges
  rw [List.getElem?_map, h]
  rfl

/-- If the time ranges do not overlap, the two objects have no start in common. -/
theorem ranged_disjoint (h1 : Valid this) (h2 : Valid other) (r1 : this.ranged = true) (r2 : other.ranged = true) (h : timeGuard so this other = .ok ()) :
    ∀ t ∈ other.keys, t ∉ this.keys := by
  unfold timeGuard at h
  rw [if_pos r1] at h
  have hf : rangeOverlap so.num (this.timeRanges ++ other.timeRanges) = .ok false := by
    revert h
    cases rangeOverlap so.num (this.timeRanges ++ other.timeRanges) with
    | error e => simp
    | ok b => cases b <;> simp
  intro t h3 h4
  unfold Obj.keys at h3 h4
  obtain ⟨b, hb, rfl⟩ := List.mem_map.1 h3
  obtain ⟨a, ha, hab⟩ := List.mem_map.1 h4
  obtain ⟨i, hi⟩ := List.getElem?_of_mem ha
  obtain ⟨j, hj⟩ := List.getElem?_of_mem hb
  have hil := (List.getElem?_eq_some_iff.1 hi).1
  have hl : this.timeRanges.length = this.times.length := by unfold Obj.timeRanges; simp
  apply range_overlap_false so.num _ hf
  refine ⟨i, this.times.length + j, (a.time, a.stop.getD a.time), (b.time, b.stop.getD b.time), by omega, ?_, ?_, ?_⟩
  · rw [List.getElem?_append_left (by omega)]; exact ranges_of this i a hi
  · rw [List.getElem?_append_right (by omega), hl, Nat.add_sub_cancel_left]; exact ranges_of other j b hj
  · obtain ⟨s, hs, hlt⟩ := h1.stops r1 a ha
    obtain ⟨s', hs', hlt'⟩ := h2.stops r2 b hb
    rw [hs, hs']
    simp only [Option.getD_some]
    constructor
    · simp only; rw [hab]; exact hlt'
    · simp only; rw [← hab]; exact hlt

theorem timePlan_ok (h1 : Valid this) (h2 : Valid other) (hr : this.ranged = other.ranged) (h : timeGuard so this other = .ok ()) :
    PlanOk this.keys other.keys (timePlan so this other) := by
  have hk := axisPlan_ok so.num.run (fun l => (so.num.sorts l).1) h1.keys h2.keys
  cases r1 : this.ranged with
  | false =>
    have : timePlan so this other = axisPlan so.num.run this.keys other.keys := by
      unfold timePlan timeT2o
      simp [r1]
    rw [this]; exact hk
  | true =>
    have r2 : other.ranged = true := by rw [← hr]; exact r1
    have hd := ranged_disjoint so h1 h2 r1 r2 h
    have hpk : ∀ i ∈ (axisPlan so.num.run this.keys other.keys).perm, i < this.keys.length := perm_lt hk.reord.isPerm
    refine ⟨hk.nodupA, hk.nodupB, hk.reord, hk.new, ?_, hk.order, hk.ia⟩
    show timeT2o this other (axisPlan so.num.run this.keys other.keys) = t2o (fancy this.keys (axisPlan so.num.run this.keys other.keys).perm ++
      fancy other.keys (axisPlan so.num.run this.keys other.keys).new) other.keys
    unfold timeT2o
    rw [if_pos r1]
    have e : fancy this.keys (axisPlan so.num.run this.keys other.keys).perm ++ fancy other.keys (axisPlan so.num.run this.keys other.keys).new =
        (fancy this.times (axisPlan so.num.run this.keys other.keys).perm ++ fancy other.times (axisPlan so.num.run this.keys other.keys).new).map Row.time := by
      rw [List.map_append, ← Add.fancy_map_comm, ← Add.fancy_map_comm]
      rfl
    rw [e]
    unfold t2o
    rw [whereIdx_map]
    apply strictSorted_ext (whereIdx_sorted _ _) (whereIdx_sorted _ _)
    intro i
    rw [mem_whereIdx, mem_whereIdx]
    apply exists_congr
    intro r
    apply and_congr_right
    intro hi
    rw [Bool.and_eq_true]
    constructor
    · exact fun h => h.1
    · intro h
      refine ⟨h, ?_⟩
      have hm := List.mem_of_getElem? hi
      rw [List.contains_iff_mem] at h
      rw [List.mem_append] at hm
      have fm : ∀ (l : List (Row K R)) (idx : List Nat), r ∈ fancy l idx → r ∈ l := by
        intro l idx hr
        unfold fancy at hr
        rw [List.mem_filterMap] at hr
        obtain ⟨j, -, hj⟩ := hr
        exact List.mem_of_getElem? hj
      rcases hm with hm | hm
      · exact absurd (List.mem_map_of_mem (f := Row.time) (fm _ _ hm)) (hd _ h)
      · rw [List.contains_iff_mem]
        exact List.mem_map_of_mem (f := Row.stop) (fm _ _ hm)

end
end Verif.CalAdd
