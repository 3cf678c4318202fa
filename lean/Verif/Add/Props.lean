import Verif.Add.Plan

/-!
C31, C32: adding two data objects.

A cell is named by its labels: baseline-time, channel (spectral window and frequency) and polarization.
-/
namespace Verif.Add
open Verif.Np Verif.FreqSort

variable {ρ K V : Type} [LinearOrder ρ] [LinearOrder K]

/-! ### Specification -/

/-- The array holds `v` in the cell with these labels. -/
def At {α : Type} (o : Obj ρ K V) (a : Arr α) (x : ρ) (c : Int × K) (z : Int) (v : α) : Prop :=
  ∃ i j k : Nat, o.blt[i]? = some x ∧ o.chan[j]? = some c ∧ o.pol[k]? = some z ∧ a i j k = v

/-- The object has a cell with these labels. -/
def Has (o : Obj ρ K V) (x : ρ) (c : Int × K) (z : Int) : Prop := x ∈ o.blt ∧ c ∈ o.chan ∧ z ∈ o.pol

/-- The object has this visibility, flag and sample count in the cell. -/
def Cell (o : Obj ρ K V) (x : ρ) (c : Int × K) (z : Int) (d : V) (f : Bool) (n : V) : Prop :=
  At o o.data x c z d ∧ At o o.flag x c z f ∧ At o o.nsample x c z n

/-- The values of an array along one axis go with the labels: `new` gives `x` what `old` gives it. -/
def Follows {κ α : Type} (labels old : List κ) (vals oldVals : List α) (x : κ) : Prop :=
  ∀ i j : Nat, labels[i]? = some x → old[j]? = some x → vals[i]? = oldVals[j]?

/-- Along each axis the labels of the other object that both have come before those that only the other has. -/
structure OverlapsFirst (this other : Obj ρ K V) : Prop where
  blt : OverlapFirst this.blt other.blt
  chan : OverlapFirst this.chan other.chan
  pol : OverlapFirst this.pol other.pol

theorem overlapFirst_of_disjoint {κ : Type} [DecidableEq κ] (A B : List κ) (h : ∀ x ∈ B, x ∉ A) : OverlapFirst A B := by
  unfold OverlapFirst
  rw [List.filter_eq_nil_iff.2, List.filter_eq_self.2]
  · rfl
  · intro x hx; simp [h x hx]
  · intro x hx; simp [h x hx]

theorem overlapFirst_of_subset {κ : Type} [DecidableEq κ] (A B : List κ) (h : ∀ x ∈ B, x ∈ A) : OverlapFirst A B := by
  unfold OverlapFirst
  rw [List.filter_eq_self.2, List.filter_eq_nil_iff.2]
  · simp
  · intro x hx; simp [h x hx]
  · intro x hx; simp [h x hx]

/-! ### Arrays -/

section arrays
variable {κ μ ν : Type} [DecidableEq κ] [DecidableEq μ] [DecidableEq ν] {α : Type}
variable {A B : List κ} {C D : List μ} {E F : List ν} {pb pf pp : Plan}

theorem mergeArr_get (hb : PlanOk A B pb) (hf : PlanOk C D pf) (hp : PlanOk E F pp) (pad : α) (a b : Arr α) (i j k : Nat) :
    mergeArr pad A.length C.length E.length pb pf pp a b i j k =
      assign pb.t2o pf.t2o pp.t2o (padArr A.length C.length E.length pad (reindex pb.perm pf.perm pp.perm a)) b
        (pb.order.getD i 0) (pf.order.getD j 0) (pp.order.getD k 0) := by
  unfold mergeArr
  rw [effOrder_eq pb hb.order, effOrder_eq pf hf.order, effOrder_eq pp hp.order]
  rfl

theorem same_index {κ : Type} {l : List κ} (h : l.Nodup) {i j : Nat} {x : κ} (hi : l[i]? = some x) (hj : l[j]? = some x) : i = j :=
  (List.getElem?_inj (List.getElem?_eq_some_iff.1 hi).1 h).1 (hi.trans hj.symm)

theorem mergeArr_value (hb : PlanOk A B pb) (hf : PlanOk C D pf) (hp : PlanOk E F pp) (pad : α) (a b : Arr α)
    (i j k : Nat) (x : κ) (c : μ) (z : ν) (hx : (mergeRow pb A B)[i]? = some x) (hc : (mergeRow pf C D)[j]? = some c)
    (hz : (mergeRow pp E F)[k]? = some z) :
    (OverlapFirst A B → OverlapFirst C D → OverlapFirst E F → ∀ i' j' k' : Nat, B[i']? = some x → D[j']? = some c → F[k']? = some z →
      mergeArr pad A.length C.length E.length pb pf pp a b i j k = b i' j' k') ∧
    (¬(x ∈ B ∧ c ∈ D ∧ z ∈ F) → ∀ i' j' k' : Nat, A[i']? = some x → C[j']? = some c → E[k']? = some z →
      mergeArr pad A.length C.length E.length pb pf pp a b i j k = a i' j' k') ∧
    (¬(x ∈ B ∧ c ∈ D ∧ z ∈ F) → ¬(x ∈ A ∧ c ∈ C ∧ z ∈ E) → mergeArr pad A.length C.length E.length pb pf pp a b i j k = pad) := by
  have Hb := behind hb i x hx
  have Hf := behind hf j c hc
  have Hp := behind hp k z hz
  rw [mergeArr_get hb hf hp]
  unfold assign
  refine ⟨?_, ?_, ?_⟩
  · intro o1 o2 o3 i' j' k' hi hj hk
    have m1 := List.mem_of_getElem? hi
    have m2 := List.mem_of_getElem? hj
    have m3 := List.mem_of_getElem? hk
    rw [if_pos ⟨Hb.inOther.2 m1, Hf.inOther.2 m2, Hp.inOther.2 m3⟩,
      same_index hb.nodupB (Hb.other o1 m1) hi, same_index hf.nodupB (Hf.other o2 m2) hj, same_index hp.nodupB (Hp.other o3 m3) hk]
  · intro hn i' j' k' hi hj hk
    have m1 := List.mem_of_getElem? hi
    have m2 := List.mem_of_getElem? hj
    have m3 := List.mem_of_getElem? hk
    rw [if_neg (by rw [Hb.inOther, Hf.inOther, Hp.inOther]; exact hn)]
    unfold padArr
    rw [if_pos ⟨Hb.inThis.2 m1, Hf.inThis.2 m2, Hp.inThis.2 m3⟩]
    unfold reindex
    rw [same_index hb.nodupA (Hb.this m1) hi, same_index hf.nodupA (Hf.this m2) hj, same_index hp.nodupA (Hp.this m3) hk]
  · intro hn hn'
    rw [if_neg (by rw [Hb.inOther, Hf.inOther, Hp.inOther]; exact hn)]
    unfold padArr
    rw [if_neg (by rw [Hb.inThis, Hf.inThis, Hp.inThis]; exact hn')]

end arrays

/-! ### `__add__` -/

variable [Zero V] [DecidableEq V]

theorem chan_length (o : Obj ρ K V) (h : Valid o) : o.chan.length = o.freq.length := by
  unfold Obj.chan; rw [List.length_zip, h.spw]; simp

theorem add_ok {sB : Argsort ρ} {sP : Argsort Int} {sF : Argsort K} {this other res : Obj ρ K V}
    (h : add sB sP sF this other = .ok res) :
    guard this other (bltPlan sB this other) (freqPlan sF this other) (polPlan sP this other) = .ok () ∧
    res.blt = mergeRow (bltPlan sB this other) this.blt other.blt ∧
    res.uvw = mergeRow (bltPlan sB this other) this.uvw other.uvw ∧
    res.lst = mergeRow (bltPlan sB this other) this.lst other.lst ∧
    res.pc = mergeRow (bltPlan sB this other) this.pc other.pc ∧
    res.freq = mergeRow (freqPlan sF this other) this.freq other.freq ∧
    res.spw = mergeRow (freqPlan sF this other) this.spw other.spw ∧
    res.width = mergeRow (freqPlan sF this other) this.width other.width ∧
    res.pol = mergeRow (polPlan sP this other) this.pol other.pol ∧
    res.data = mergeArr 0 this.blt.length this.freq.length this.pol.length (bltPlan sB this other) (freqPlan sF this other)
      (polPlan sP this other) this.data other.data ∧
    res.flag = mergeArr true this.blt.length this.freq.length this.pol.length (bltPlan sB this other) (freqPlan sF this other)
      (polPlan sP this other) this.flag other.flag ∧
    res.nsample = mergeArr 0 this.blt.length this.freq.length this.pol.length (bltPlan sB this other) (freqPlan sF this other)
      (polPlan sP this other) this.nsample other.nsample := by
  unfold add at h
  simp only at h
  split at h
  · simp at h
  · rename_i hg
    injection h with h
    subst h
    exact ⟨hg, rfl, rfl, rfl, rfl, rfl, rfl, rfl, rfl, rfl, rfl, rfl⟩

theorem mergeRow_chan {p : Plan} {this other : Obj ρ K V} (h1 : Valid this) (h2 : Valid other) (h : PlanOk this.chan other.chan p) :
    (mergeRow p this.spw other.spw).zip (mergeRow p this.freq other.freq) = mergeRow p this.chan other.chan := by
  have hp : ∀ i ∈ p.perm, i < this.freq.length := by rw [← chan_length this h1]; exact perm_lt h.reord.isPerm
  have hn : ∀ i ∈ p.new, i < other.freq.length := by rw [h.new, ← chan_length other h2]; exact newInds_lt _ _
  have e1 : (fancy this.spw p.perm).length = p.perm.length := fancy_length _ _ (by rw [h1.spw]; exact hp)
  have e2 : (fancy this.freq p.perm).length = p.perm.length := fancy_length _ _ hp
  have e3 : (fancy other.spw p.new).length = p.new.length := fancy_length _ _ (by rw [h2.spw]; exact hn)
  have e4 : (fancy other.freq p.new).length = p.new.length := fancy_length _ _ hn
  have e5 : p.perm.length = this.chan.length := by rw [h.reord.isPerm.length_eq]; simp
  unfold mergeRow
  rw [fancy_zip]
  · rw [List.zip_append (by rw [e1, e2]), fancy_zip _ _ _ (by rw [h1.spw]; exact hp) hp, fancy_zip _ _ _ (by rw [h2.spw]; exact hn) hn]
    rfl
  · rw [List.length_append, e1, e3, e5]; exact perm_lt h.order
  · rw [List.length_append, e2, e4, e5]; exact perm_lt h.order

section result
variable {sB : Argsort ρ} {sP : Argsort Int} {sF : Argsort K} {this other res : Obj ρ K V}

theorem res_chan (h1 : Valid this) (h2 : Valid other) (h : add sB sP sF this other = .ok res) :
    res.chan = mergeRow (freqPlan sF this other) this.chan other.chan := by
  obtain ⟨-, -, -, -, -, e1, e2, -⟩ := add_ok h
  unfold Obj.chan
  rw [e1, e2]
  exact mergeRow_chan h1 h2 (freqPlan_ok sF this other h1 h2)

/-- The labels of the sum are those of the two objects, each once. -/
theorem add_label_sets (h1 : Valid this) (h2 : Valid other) (h : add sB sP sF this other = .ok res) :
    (res.blt.Nodup ∧ ∀ x, x ∈ res.blt ↔ x ∈ this.blt ∨ x ∈ other.blt) ∧
    (res.chan.Nodup ∧ ∀ c, c ∈ res.chan ↔ c ∈ this.chan ∨ c ∈ other.chan) ∧
    (res.pol.Nodup ∧ ∀ z, z ∈ res.pol ↔ z ∈ this.pol ∨ z ∈ other.pol) := by
  have hc := res_chan h1 h2 h
  obtain ⟨-, e1, -, -, -, -, -, -, e2, -⟩ := add_ok h
  have pb := bltPlan_ok sB this other h1.blt_nodup h2.blt_nodup
  have pf := freqPlan_ok sF this other h1 h2
  have pp := polPlan_ok sP this other h1.pol_nodup h2.pol_nodup
  rw [hc, e1, e2]
  exact ⟨⟨final_nodup pb, final_mem pb⟩, ⟨final_nodup pf, final_mem pf⟩, ⟨final_nodup pp, final_mem pp⟩⟩

/-- Arrays along one axis go with the labels; where both objects have the label, this object's value is taken. -/
theorem add_row_metadata (h1 : Valid this) (h2 : Valid other) (h : add sB sP sF this other = .ok res) :
    (∀ x ∈ this.blt, Follows res.blt this.blt res.uvw this.uvw x ∧ Follows res.blt this.blt res.lst this.lst x ∧
      Follows res.blt this.blt res.pc this.pc x) ∧
    (∀ x ∈ other.blt, x ∉ this.blt → Follows res.blt other.blt res.uvw other.uvw x ∧ Follows res.blt other.blt res.lst other.lst x ∧
      Follows res.blt other.blt res.pc other.pc x) ∧
    (∀ c ∈ this.chan, Follows res.chan this.chan res.width this.width c) ∧
    (∀ c ∈ other.chan, c ∉ this.chan → Follows res.chan other.chan res.width other.width c) := by
  have hc := res_chan h1 h2 h
  obtain ⟨-, e1, e2, e3, e4, -, -, e5, -⟩ := add_ok h
  have pb := bltPlan_ok sB this other h1.blt_nodup h2.blt_nodup
  have pf := freqPlan_ok sF this other h1 h2
  have wl : this.width.length = this.chan.length := by rw [h1.width, chan_length this h1]
  have wl' : other.width.length = other.chan.length := by rw [h2.width, chan_length other h2]
  rw [hc, e1, e2, e3, e4, e5]
  refine ⟨fun x _ => ⟨?_, ?_, ?_⟩, fun x _ hn => ⟨?_, ?_, ?_⟩, fun c _ => ?_, fun c _ hn => ?_⟩
  · exact fun i j hi hj => (mergeRow_value pb _ _ h1.uvw h2.uvw i x hi).1 j hj
  · exact fun i j hi hj => (mergeRow_value pb _ _ h1.lst h2.lst i x hi).1 j hj
  · exact fun i j hi hj => (mergeRow_value pb _ _ h1.pc h2.pc i x hi).1 j hj
  · exact fun i j hi hj => (mergeRow_value pb _ _ h1.uvw h2.uvw i x hi).2 hn j hj
  · exact fun i j hi hj => (mergeRow_value pb _ _ h1.lst h2.lst i x hi).2 hn j hj
  · exact fun i j hi hj => (mergeRow_value pb _ _ h1.pc h2.pc i x hi).2 hn j hj
  · exact fun i j hi hj => (mergeRow_value pf _ _ wl wl' i c hi).1 j hj
  · exact fun i j hi hj => (mergeRow_value pf _ _ wl wl' i c hi).2 hn j hj

/-- The three statements for one array of the sum. -/
theorem add_array {α : Type} (h1 : Valid this) (h2 : Valid other) (h : add sB sP sF this other = .ok res)
    (pad : α) (a b r : Arr α)
    (hr : r = mergeArr pad this.blt.length this.freq.length this.pol.length (bltPlan sB this other) (freqPlan sF this other)
      (polPlan sP this other) a b) (x : ρ) (c : Int × K) (z : Int) (hres : Has res x c z) :
    (OverlapsFirst this other → ∀ v, At other b x c z v → At res r x c z v) ∧
    (¬Has other x c z → ∀ v, At this a x c z v → At res r x c z v) ∧
    (¬Has other x c z → ¬Has this x c z → At res r x c z pad) := by
  have hcl := chan_length this h1
  have pb := bltPlan_ok sB this other h1.blt_nodup h2.blt_nodup
  have pf := freqPlan_ok sF this other h1 h2
  have pp := polPlan_ok sP this other h1.pol_nodup h2.pol_nodup
  obtain ⟨hx, hc, hz⟩ := hres
  obtain ⟨i, hi⟩ := List.mem_iff_getElem?.1 hx
  obtain ⟨j, hj⟩ := List.mem_iff_getElem?.1 hc
  obtain ⟨k, hk⟩ := List.mem_iff_getElem?.1 hz
  have hi' := hi
  have hj' := hj
  have hk' := hk
  rw [res_chan h1 h2 h] at hj'
  obtain ⟨-, e1, -, -, -, -, -, -, e2, -⟩ := add_ok h
  rw [e1] at hi'
  rw [e2] at hk'
  have key := mergeArr_value pb pf pp pad a b i j k x c z hi' hj' hk'
  rw [hcl, ← hr] at key
  refine ⟨?_, ?_, ?_⟩
  · rintro ⟨o1, o2, o3⟩ v ⟨i', j', k', q1, q2, q3, rfl⟩
    exact ⟨i, j, k, hi, hj, hk, key.1 o1 o2 o3 i' j' k' q1 q2 q3⟩
  · rintro hn v ⟨i', j', k', q1, q2, q3, rfl⟩
    exact ⟨i, j, k, hi, hj, hk, key.2.1 hn i' j' k' q1 q2 q3⟩
  · intro hn hn'
    exact ⟨i, j, k, hi, hj, hk, key.2.2 hn hn'⟩

theorem at_has {α : Type} {o : Obj ρ K V} {a : Arr α} {x : ρ} {c : Int × K} {z : Int} {v : α} (h : At o a x c z v) : Has o x c z := by
  obtain ⟨i, j, k, q1, q2, q3, -⟩ := h
  exact ⟨List.mem_of_getElem? q1, List.mem_of_getElem? q2, List.mem_of_getElem? q3⟩

/-- Every cell of this object that the other object does not have keeps its values. -/
theorem add_keeps_this (h1 : Valid this) (h2 : Valid other) (h : add sB sP sF this other = .ok res)
    (x : ρ) (c : Int × K) (z : Int) (d : V) (f : Bool) (n : V) (hcell : Cell this x c z d f n) (hn : ¬Has other x c z) :
    Cell res x c z d f n := by
  have hs := add_label_sets h1 h2 h
  have hh := at_has hcell.1
  have hres : Has res x c z := ⟨(hs.1.2 x).2 (.inl hh.1), (hs.2.1.2 c).2 (.inl hh.2.1), (hs.2.2.2 z).2 (.inl hh.2.2)⟩
  obtain ⟨-, -, -, -, -, -, -, -, -, e1, e2, e3⟩ := add_ok h
  exact ⟨(add_array h1 h2 h 0 _ _ _ e1 x c z hres).2.1 hn d hcell.1, (add_array h1 h2 h true _ _ _ e2 x c z hres).2.1 hn f hcell.2.1,
    (add_array h1 h2 h 0 _ _ _ e3 x c z hres).2.1 hn n hcell.2.2⟩

/-- A cell that neither object has is zero, flagged and has no samples. -/
theorem add_pads (h1 : Valid this) (h2 : Valid other) (h : add sB sP sF this other = .ok res)
    (x : ρ) (c : Int × K) (z : Int) (hres : Has res x c z) (hn : ¬Has other x c z) (hn' : ¬Has this x c z) :
    Cell res x c z 0 true 0 := by
  obtain ⟨-, -, -, -, -, -, -, -, -, e1, e2, e3⟩ := add_ok h
  exact ⟨(add_array h1 h2 h 0 _ _ _ e1 x c z hres).2.2 hn hn', (add_array h1 h2 h true _ _ _ e2 x c z hres).2.2 hn hn',
    (add_array h1 h2 h 0 _ _ _ e3 x c z hres).2.2 hn hn'⟩

/-- Every cell of the other object keeps its values, if along each axis the labels of the other object that both have come
first. -/
theorem add_keeps_other_partial (h1 : Valid this) (h2 : Valid other) (hof : OverlapsFirst this other)
    (h : add sB sP sF this other = .ok res)
    (x : ρ) (c : Int × K) (z : Int) (d : V) (f : Bool) (n : V) (hcell : Cell other x c z d f n) :
    Cell res x c z d f n := by
  have hs := add_label_sets h1 h2 h
  have hh := at_has hcell.1
  have hres : Has res x c z := ⟨(hs.1.2 x).2 (.inr hh.1), (hs.2.1.2 c).2 (.inr hh.2.1), (hs.2.2.2 z).2 (.inr hh.2.2)⟩
  obtain ⟨-, -, -, -, -, -, -, -, -, e1, e2, e3⟩ := add_ok h
  exact ⟨(add_array h1 h2 h 0 _ _ _ e1 x c z hres).1 hof d hcell.1, (add_array h1 h2 h true _ _ _ e2 x c z hres).1 hof f hcell.2.1,
    (add_array h1 h2 h 0 _ _ _ e3 x c z hres).1 hof n hcell.2.2⟩

/-- The usual cases: along each axis the objects share nothing, or this object has everything the other has. -/
theorem overlapsFirst_of (hb : (∀ x ∈ other.blt, x ∉ this.blt) ∨ ∀ x ∈ other.blt, x ∈ this.blt)
    (hc : (∀ x ∈ other.chan, x ∉ this.chan) ∨ ∀ x ∈ other.chan, x ∈ this.chan)
    (hp : (∀ x ∈ other.pol, x ∉ this.pol) ∨ ∀ x ∈ other.pol, x ∈ this.pol) : OverlapsFirst this other where
  blt := hb.elim (overlapFirst_of_disjoint _ _) (overlapFirst_of_subset _ _)
  chan := hc.elim (overlapFirst_of_disjoint _ _) (overlapFirst_of_subset _ _)
  pol := hp.elim (overlapFirst_of_disjoint _ _) (overlapFirst_of_subset _ _)

theorem map_inj_on {α β : Type} (f : α → β) (l l' : List α) (h : ∀ a ∈ l, ∀ b ∈ l', f a = f b → a = b) (e : l.map f = l'.map f) : l = l' := by
  induction l generalizing l' with
  | nil => cases l' with
    | nil => rfl
    | cons _ _ => simp at e
  | cons a l ih =>
    cases l' with
    | nil => simp at e
    | cons b l' =>
      simp only [List.map_cons, List.cons.injEq] at e
      rw [h a (by simp) b (by simp) e.1, ih l' (fun x hx y hy => h x (by simp [hx]) y (by simp [hy])) e.2]

theorem perm_eq_range {κ : Type} [LinearOrder κ] {A B : List κ} (hA : A.Nodup) (hB : B.Nodup)
    (hsame : A.filter (fun x => B.contains x) = B.filter (fun x => A.contains x)) :
    reorderInds A.length (overlapInds (inter A B) A) (overlapInds (inter A B) B) = List.range A.length := by
  have hc := inter_common A B
  have hia : ∀ i ∈ overlapInds (inter A B) A, i < A.length := by
    intro i hi
    obtain ⟨x, hx, -⟩ := (overlap_mem hA hc i).1 hi
    exact (List.getElem?_eq_some_iff.1 hx).1
  rw [reorderInds_eq A.length _ _ (by simp [overlapInds]) hia, sorted_overlap hA hc]
  have hv := values_overlap hB hc
  rw [← hsame, ← fancy_where] at hv
  have hlt : ∀ i ∈ fancy (overlapInds (inter A B) A) (argsortNat (overlapInds (inter A B) B)), i < A.length := by
    intro i hi
    unfold fancy at hi
    rw [List.mem_filterMap] at hi
    obtain ⟨j, -, hj⟩ := hi
    exact hia i (List.mem_of_getElem? hj)
  have hlt' : ∀ i ∈ whereIdx (fun x => B.contains x) A, i < A.length := by
    intro i hi
    rw [mem_whereIdx] at hi
    obtain ⟨x, hx, -⟩ := hi
    exact (List.getElem?_eq_some_iff.1 hx).1
  have hm := congrArg (List.map some) hv
  rw [fancy_map _ _ hlt, fancy_map _ _ hlt'] at hm
  have he := map_inj_on _ _ _ (fun a ha b _ hab => (List.getElem?_inj (hlt a ha) hA).1 hab) hm
  rw [he, scatter_self]

/-- The rows of the sum are sorted, if the other object has a new row and the shared rows are in the same order in both. -/
theorem add_rows_sorted_partial (h1 : Valid this) (h2 : Valid other) (h : add sB sP sF this other = .ok res)
    (hnew : ∃ x ∈ other.blt, x ∉ this.blt)
    (hsame : this.blt.filter (fun x => other.blt.contains x) = other.blt.filter (fun x => this.blt.contains x)) :
    res.blt.Pairwise (· ≤ ·) := by
  obtain ⟨-, e1, -⟩ := add_ok h
  rw [e1]
  have hp : (bltPlan sB this other).perm = List.range this.blt.length := perm_eq_range h1.blt_nodup h2.blt_nodup hsame
  have hne : newInds this.blt other.blt ≠ [] := by
    obtain ⟨x, hx, hx'⟩ := hnew
    obtain ⟨i, hi⟩ := List.mem_iff_getElem?.1 hx
    intro hnil
    have : i ∈ newInds this.blt other.blt := by
      unfold newInds
      rw [mem_whereIdx]
      exact ⟨x, hi, by simp [hx']⟩
    rw [hnil] at this
    simp at this
  have ho : (bltPlan sB this other).order = sB.run (this.blt ++ fancy other.blt (newInds this.blt other.blt)) := by
    unfold bltPlan
    simp only
    rw [if_neg hne]
  unfold mergeRow
  rw [hp, ho, fancy_range, show (bltPlan sB this other).new = newInds this.blt other.blt from rfl]
  have := fancy_sorted (this.blt ++ fancy other.blt (newInds this.blt other.blt)) _ some rfl _ (sB.sorts _)
  exact this.imp (fun h => h _ _ rfl rfl)

end result

/-! ### C32: refusal -/

section refusal
variable {sB : Argsort ρ} {sP : Argsort Int} {sF : Argsort K} {this other res : Obj ρ K V}

/-- All cells that both objects have are zero and flagged in `o`. -/
def SharedInvalid (this other o : Obj ρ K V) : Prop :=
  ∀ x c z, Has this x c z → Has other x c z → At o o.data x c z 0 ∧ At o o.flag x c z true

/-- The objects share a cell. -/
def Shares (this other : Obj ρ K V) : Prop := ∃ x c z, Has this x c z ∧ Has other x c z

theorem allAt_iff {α : Type} (p q r : List Nat) (a : Arr α) (f : α → Bool) :
    allAt p q r a f = true ↔ ∀ i ∈ p, ∀ j ∈ q, ∀ k ∈ r, f (a i j k) = true := by
  unfold allAt
  simp only [List.all_eq_true]

/-- The positions of shared labels. -/
structure Positions {κ : Type} (A B o : List κ) (p : List Nat) : Prop where
  mem : ∀ i : Nat, i ∈ p ↔ ∃ x, o[i]? = some x ∧ x ∈ A ∧ x ∈ B

theorem allAt_cells {α : Type} (o : Obj ρ K V) (ho : Valid o) (p q r : List Nat) (a : Arr α) (f : α → Bool)
    (h1 : Positions this.blt other.blt o.blt p) (h2 : Positions this.chan other.chan o.chan q)
    (h3 : Positions this.pol other.pol o.pol r) (hin : ∀ x c z, Has this x c z → Has other x c z → Has o x c z) :
    allAt p q r a f = true ↔ ∀ x c z, Has this x c z → Has other x c z → ∃ v, At o a x c z v ∧ f v = true := by
  rw [allAt_iff]
  constructor
  · intro h x c z ht hq
    obtain ⟨hx, hc, hz⟩ := hin x c z ht hq
    obtain ⟨i, hi⟩ := List.mem_iff_getElem?.1 hx
    obtain ⟨j, hj⟩ := List.mem_iff_getElem?.1 hc
    obtain ⟨k, hk⟩ := List.mem_iff_getElem?.1 hz
    refine ⟨a i j k, ⟨i, j, k, hi, hj, hk, rfl⟩, h i ?_ j ?_ k ?_⟩
    · exact (h1.mem i).2 ⟨x, hi, ht.1, hq.1⟩
    · exact (h2.mem j).2 ⟨c, hj, ht.2.1, hq.2.1⟩
    · exact (h3.mem k).2 ⟨z, hk, ht.2.2, hq.2.2⟩
  · intro h i hi j hj k hk
    obtain ⟨x, hxi, hxt, hxo⟩ := (h1.mem i).1 hi
    obtain ⟨c, hcj, hct, hco⟩ := (h2.mem j).1 hj
    obtain ⟨z, hzk, hzt, hzo⟩ := (h3.mem k).1 hk
    obtain ⟨v, ⟨i', j', k', q1, q2, q3, rfl⟩, hv⟩ := h x c z ⟨hxt, hct, hzt⟩ ⟨hxo, hco, hzo⟩
    rw [same_index ho.blt_nodup hxi q1, same_index ho.chan_nodup hcj q2, same_index ho.pol_nodup hzk q3]
    exact hv

theorem positions_this {κ : Type} [DecidableEq κ] {A B : List κ} {p : Plan} (h : PlanOk A B p) : Positions A B A p.ia where
  mem := by
    intro i
    rw [h.ia]
    exact exists_congr fun x => and_congr_right fun hx => ⟨fun hb => ⟨List.mem_of_getElem? hx, hb⟩, fun hb => hb.2⟩

theorem positions_other {κ : Type} [DecidableEq κ] {A B common : List κ} (hB : B.Nodup) (hc : Common A B common) :
    Positions A B B (overlapInds common B) where
  mem := by
    intro i
    have hc' : Common B A common := ⟨hc.nodup, fun x => by rw [hc.mem, and_comm]⟩
    rw [overlap_mem hB hc' i]
    exact exists_congr fun x => and_congr_right fun hx => ⟨fun ha => ⟨ha, List.mem_of_getElem? hx⟩, fun ha => ha.1⟩

theorem shares_iff (h1 : Valid this) (h2 : Valid other) :
    ((polPlan sP this other).ia ≠ [] ∧ (freqPlan sF this other).ia ≠ [] ∧ (bltPlan sB this other).ia ≠ []) ↔ Shares this other := by
  have pb := positions_this (bltPlan_ok sB this other h1.blt_nodup h2.blt_nodup)
  have pf := positions_this (freqPlan_ok sF this other h1 h2)
  have pp := positions_this (polPlan_ok sP this other h1.pol_nodup h2.pol_nodup)
  have key : ∀ {κ : Type} {A B : List κ} {l : List Nat}, Positions A B A l → (l ≠ [] ↔ ∃ x, x ∈ A ∧ x ∈ B) := by
    intro κ A B l hp
    constructor
    · intro hne
      obtain ⟨i, hi⟩ := List.exists_mem_of_ne_nil l hne
      obtain ⟨x, -, hx⟩ := (hp.mem i).1 hi
      exact ⟨x, hx⟩
    · rintro ⟨x, hx, hx'⟩ hnil
      obtain ⟨i, hi⟩ := List.mem_iff_getElem?.1 hx
      have := (hp.mem i).2 ⟨x, hi, hx, hx'⟩
      rw [hnil] at this
      simp at this
  rw [key pb, key pf, key pp]
  constructor
  · rintro ⟨⟨z, z1, z2⟩, ⟨c, c1, c2⟩, ⟨x, x1, x2⟩⟩
    exact ⟨x, c, z, ⟨x1, c1, z1⟩, ⟨x2, c2, z2⟩⟩
  · rintro ⟨x, c, z, ⟨x1, c1, z1⟩, ⟨x2, c2, z2⟩⟩
    exact ⟨⟨z, z1, z2⟩, ⟨c, c1, c2⟩, ⟨x, x1, x2⟩⟩

theorem invalid_iff (o : Obj ρ K V) (ho : Valid o) (p q r : List Nat)
    (h1 : Positions this.blt other.blt o.blt p) (h2 : Positions this.chan other.chan o.chan q)
    (h3 : Positions this.pol other.pol o.pol r) (hin : ∀ x c z, Has this x c z → Has other x c z → Has o x c z) :
    (allAt p q r o.data (fun v => decide (v = 0)) && allAt p q r o.flag id) = true ↔ SharedInvalid this other o := by
  rw [Bool.and_eq_true, allAt_cells o ho p q r o.data _ h1 h2 h3 hin, allAt_cells o ho p q r o.flag _ h1 h2 h3 hin]
  unfold SharedInvalid
  constructor
  · rintro ⟨ha, hb⟩ x c z ht hq
    obtain ⟨v, hv, hv0⟩ := ha x c z ht hq
    obtain ⟨w, hw, hw0⟩ := hb x c z ht hq
    simp only [decide_eq_true_eq] at hv0
    simp only [id] at hw0
    subst hv0 hw0
    exact ⟨hv, hw⟩
  · intro h
    exact ⟨fun x c z ht hq => ⟨0, (h x c z ht hq).1, by simp⟩, fun x c z ht hq => ⟨true, (h x c z ht hq).2, rfl⟩⟩

/-- C32. The outcome of adding two objects: accepted exactly if no cell is shared, or all shared cells of this object are
zero and flagged; refused with advice to swap exactly if only the other object's shared cells are; else refused as
overlapping. -/
theorem add_outcome (h1 : Valid this) (h2 : Valid other) :
    ((∃ res, add sB sP sF this other = .ok res) ↔ (¬Shares this other ∨ SharedInvalid this other this)) ∧
    (add sB sP sF this other = .error .swapOrder ↔
      (Shares this other ∧ ¬SharedInvalid this other this ∧ SharedInvalid this other other)) ∧
    (add sB sP sF this other = .error .overlap ↔
      (Shares this other ∧ ¬SharedInvalid this other this ∧ ¬SharedInvalid this other other)) := by
  have pb := bltPlan_ok sB this other h1.blt_nodup h2.blt_nodup
  have pf := freqPlan_ok sF this other h1 h2
  have pp := polPlan_ok sP this other h1.pol_nodup h2.pol_nodup
  have hs := shares_iff (sB := sB) (sP := sP) (sF := sF) h1 h2
  have hi1 := invalid_iff this h1 _ _ _ (positions_this pb) (positions_this pf) (positions_this pp) (fun _ _ _ h _ => h)
  have hfo : (freqPlan sF this other).ib = overlapInds (commonChan this other) other.chan :=
    freqOverlap_eq this other other h2 (fun w f hf => (((inter_common _ _).mem f).1 hf).2)
  have qf := positions_other h2.chan_nodup (commonChan_common this other h1 h2)
  rw [← hfo] at qf
  have hi2 := invalid_iff (this := this) (other := other) other h2 (bltPlan sB this other).ib (freqPlan sF this other).ib (polPlan sP this other).ib
    (positions_other h2.blt_nodup (inter_common _ _)) qf (positions_other h2.pol_nodup (inter_common _ _)) (fun _ _ _ _ h => h)
  rw [← hs, ← hi1, ← hi2]
  unfold add guard
  simp only
  split_ifs <;> simp_all

/-- C32. Nothing of this object is lost but cells that are zero and flagged and that the other object has. -/
theorem add_never_loses_this (h1 : Valid this) (h2 : Valid other) (h : add sB sP sF this other = .ok res)
    (x : ρ) (c : Int × K) (z : Int) (d : V) (f : Bool) (n : V) (hcell : Cell this x c z d f n) (hvalid : d ≠ 0 ∨ f = false) :
    Cell res x c z d f n := by
  apply add_keeps_this h1 h2 h x c z d f n hcell
  intro hoth
  have hthis := at_has hcell.1
  rcases ((add_outcome (sB := sB) (sP := sP) (sF := sF) h1 h2).1.1 ⟨res, h⟩) with hno | hinv
  · exact hno ⟨x, c, z, hthis, hoth⟩
  · obtain ⟨⟨i, j, k, q1, q2, q3, hd⟩, ⟨i2, j2, k2, r1, r2, r3, hf⟩⟩ := hinv x c z hthis hoth
    obtain ⟨⟨i3, j3, k3, s1, s2, s3, hd'⟩, ⟨i4, j4, k4, t1, t2, t3, hf'⟩, -⟩ := hcell
    rw [same_index h1.blt_nodup s1 q1, same_index h1.chan_nodup s2 q2, same_index h1.pol_nodup s3 q3, hd] at hd'
    rw [same_index h1.blt_nodup t1 r1, same_index h1.chan_nodup t2 r2, same_index h1.pol_nodup t3 r3, hf] at hf'
    rcases hvalid with hv | hv
    · exact hv hd'.symm
    · rw [hv] at hf'; simp at hf'

end refusal

end Verif.Add
