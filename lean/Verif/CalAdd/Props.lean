import Verif.CalAdd.Plan

/-! C90, C91: what the sum of two calibration objects has under which labels, and when there is one. -/
namespace Verif.CalAdd
open Verif.Np Verif.FreqSort Verif.Add

variable {K R V Q : Type} [LinearOrder K]

/-! ### Specification -/

/-- The value of an array of the object for antenna `x`, channel `c`, time `t` and Jones component `z`. -/
def At {α : Type} (o : Obj K R V Q) (a : Arr4 α) (x : Int) (c : Int × Option K) (t : K) (z : Int) (v : α) : Prop :=
  ∃ i j k l : Nat, o.ants[i]? = some x ∧ o.lab[j]? = some c ∧ o.keys[k]? = some t ∧ o.jones[l]? = some z ∧ a i j k l = v

/-- The object has a solution with these labels. -/
def Has (o : Obj K R V Q) (x : Int) (c : Int × Option K) (t : K) (z : Int) : Prop := x ∈ o.ants ∧ c ∈ o.lab ∧ t ∈ o.keys ∧ z ∈ o.jones

/-- The solution of the object with these labels is `v`. -/
def Sol (o : Obj K R V Q) (x : Int) (c : Int × Option K) (t : K) (z : Int) (v : V) : Prop := At o o.data x c t z v

/-- The quality of the solution with these labels is `q`. -/
def Qual (o : Obj K R V Q) (x : Int) (c : Int × Option K) (t : K) (z : Int) (q : Q) : Prop := ∃ a, o.quality = some a ∧ At o a x c t z q

/-- The quality of all antennas together is `q`. -/
def Tot (o : Obj K R V Q) (c : Int × Option K) (t : K) (z : Int) (q : Q) : Prop :=
  ∃ a, o.total = some a ∧ ∃ j k l : Nat, o.lab[j]? = some c ∧ o.keys[k]? = some t ∧ o.jones[l]? = some z ∧ a j k l = q

/-- Along each axis the labels of the other object that both have come before those that only the other has. -/
structure OverlapsFirst (this other : Obj K R V Q) : Prop where
  ants : OverlapFirst this.ants other.ants
  lab : OverlapFirst this.lab other.lab
  keys : OverlapFirst this.keys other.keys
  jones : OverlapFirst this.jones other.jones

/-- The two objects have a solution for the same labels. -/
def Shares (this other : Obj K R V Q) : Prop := ∃ x c t z, Has this x c t z ∧ Has other x c t z

/-! ### Arrays -/

section arrays
variable {κ μ ν ξ : Type} [DecidableEq κ] [DecidableEq μ] [DecidableEq ν] [DecidableEq ξ] {α : Type}
variable {A B : List κ} {C D : List μ} {E F : List ν} {G H : List ξ} {pa pf pt pj : Plan}

theorem mergeArr4_value (ha : PlanOk A B pa) (hf : PlanOk C D pf) (ht : PlanOk E F pt) (hj : PlanOk G H pj) (pad : α) (a : Arr4 α) (b : Option (Arr4 α))
    (i j k l : Nat) (x : κ) (c : μ) (t : ν) (z : ξ) (hx : (mergeRow pa A B)[i]? = some x) (hc : (mergeRow pf C D)[j]? = some c)
    (hk : (mergeRow pt E F)[k]? = some t) (hz : (mergeRow pj G H)[l]? = some z) :
    (∀ b', b = some b' → OverlapFirst A B → OverlapFirst C D → OverlapFirst E F → OverlapFirst G H →
      ∀ i' j' k' l' : Nat, B[i']? = some x → D[j']? = some c → F[k']? = some t → H[l']? = some z →
      mergeArr4 pad A.length C.length E.length G.length pa pf pt pj a b i j k l = b' i' j' k' l') ∧
    (b = none ∨ ¬(x ∈ B ∧ c ∈ D ∧ t ∈ F ∧ z ∈ H) → ∀ i' j' k' l' : Nat, A[i']? = some x → C[j']? = some c → E[k']? = some t → G[l']? = some z →
      mergeArr4 pad A.length C.length E.length G.length pa pf pt pj a b i j k l = a i' j' k' l') ∧
    (b = none ∨ ¬(x ∈ B ∧ c ∈ D ∧ t ∈ F ∧ z ∈ H) → ¬(x ∈ A ∧ c ∈ C ∧ t ∈ E ∧ z ∈ G) →
      mergeArr4 pad A.length C.length E.length G.length pa pf pt pj a b i j k l = pad) := by
  have Ha := behind ha i x hx
  have Hf := behind hf j c hc
  have Ht := behind ht k t hk
  have Hj := behind hj l z hz
  unfold mergeArr4
  rw [effOrder_eq pa ha.order, effOrder_eq pf hf.order, effOrder_eq pt ht.order, effOrder_eq pj hj.order]
  unfold reindex4
  refine ⟨?_, ?_, ?_⟩
  · rintro b' rfl o1 o2 o3 o4 i' j' k' l' hi hj' hk' hl
    have m1 := List.mem_of_getElem? hi
    have m2 := List.mem_of_getElem? hj'
    have m3 := List.mem_of_getElem? hk'
    have m4 := List.mem_of_getElem? hl
    unfold assignOpt4 assign4
    simp only
    rw [if_pos ⟨Ha.inOther.2 m1, Hf.inOther.2 m2, Ht.inOther.2 m3, Hj.inOther.2 m4⟩,
      same_index ha.nodupB (Ha.other o1 m1) hi, same_index hf.nodupB (Hf.other o2 m2) hj', same_index ht.nodupB (Ht.other o3 m3) hk',
      same_index hj.nodupB (Hj.other o4 m4) hl]
  · intro hb i' j' k' l' hi hj' hk' hl
    have m1 := List.mem_of_getElem? hi
    have m2 := List.mem_of_getElem? hj'
    have m3 := List.mem_of_getElem? hk'
    have m4 := List.mem_of_getElem? hl
    have key : padArr4 A.length C.length E.length G.length pad (reindex4 pa.perm pf.perm pt.perm pj.perm a)
        (pa.order.getD i 0) (pf.order.getD j 0) (pt.order.getD k 0) (pj.order.getD l 0) = a i' j' k' l' := by
      unfold padArr4
      rw [if_pos ⟨Ha.inThis.2 m1, Hf.inThis.2 m2, Ht.inThis.2 m3, Hj.inThis.2 m4⟩]
      unfold reindex4
      rw [same_index ha.nodupA (Ha.this m1) hi, same_index hf.nodupA (Hf.this m2) hj', same_index ht.nodupA (Ht.this m3) hk',
        same_index hj.nodupA (Hj.this m4) hl]
    cases b with
    | none => exact key
    | some b' =>
      have hn := hb.resolve_left (by simp)
      unfold assignOpt4 assign4
      simp only
      rw [if_neg (by rw [Ha.inOther, Hf.inOther, Ht.inOther, Hj.inOther]; exact hn)]
      exact key
  · intro hb hn'
    have key : padArr4 A.length C.length E.length G.length pad (reindex4 pa.perm pf.perm pt.perm pj.perm a)
        (pa.order.getD i 0) (pf.order.getD j 0) (pt.order.getD k 0) (pj.order.getD l 0) = pad := by
      unfold padArr4
      rw [if_neg (by rw [Ha.inThis, Hf.inThis, Ht.inThis, Hj.inThis]; exact hn')]
    cases b with
    | none => exact key
    | some b' =>
      have hn := hb.resolve_left (by simp)
      unfold assignOpt4 assign4
      simp only
      rw [if_neg (by rw [Ha.inOther, Hf.inOther, Ht.inOther, Hj.inOther]; exact hn)]
      exact key

theorem mergeTotal_value (hf : PlanOk C D pf) (ht : PlanOk E F pt) (hj : PlanOk G H pj) (pad : α) (a : Arr α) (b : Option (Arr α))
    (j k l : Nat) (c : μ) (t : ν) (z : ξ) (hc : (mergeRow pf C D)[j]? = some c)
    (hk : (mergeRow pt E F)[k]? = some t) (hz : (mergeRow pj G H)[l]? = some z) :
    (∀ b', b = some b' → OverlapFirst C D → OverlapFirst E F → OverlapFirst G H →
      ∀ j' k' l' : Nat, D[j']? = some c → F[k']? = some t → H[l']? = some z →
      mergeTotal pad C.length E.length G.length pf pt pj a b j k l = b' j' k' l') ∧
    (b = none ∨ ¬(c ∈ D ∧ t ∈ F ∧ z ∈ H) → ∀ j' k' l' : Nat, C[j']? = some c → E[k']? = some t → G[l']? = some z →
      mergeTotal pad C.length E.length G.length pf pt pj a b j k l = a j' k' l') ∧
    (b = none ∨ ¬(c ∈ D ∧ t ∈ F ∧ z ∈ H) → ¬(c ∈ C ∧ t ∈ E ∧ z ∈ G) →
      mergeTotal pad C.length E.length G.length pf pt pj a b j k l = pad) := by
  cases b with
  | some b' =>
    have h := mergeArr_value hf ht hj pad a b' j k l c t z hc hk hz
    unfold mergeTotal
    simp only [reduceCtorEq, false_or, Option.some.injEq]
    exact ⟨fun q hq => hq ▸ h.1, h.2.1, h.2.2⟩
  | none =>
    have Hf := behind hf j c hc
    have Ht := behind ht k t hk
    have Hj := behind hj l z hz
    unfold mergeTotal
    simp only
    rw [effOrder_eq pf hf.order, effOrder_eq pt ht.order, effOrder_eq pj hj.order]
    refine ⟨(fun b' hb => by cases hb), ?_, ?_⟩
    · intro _ j' k' l' hj' hk' hl
      have m2 := List.mem_of_getElem? hj'
      have m3 := List.mem_of_getElem? hk'
      have m4 := List.mem_of_getElem? hl
      show padArr C.length E.length G.length pad (reindex pf.perm pt.perm pj.perm a) (pf.order.getD j 0) (pt.order.getD k 0) (pj.order.getD l 0) = _
      unfold padArr
      rw [if_pos ⟨Hf.inThis.2 m2, Ht.inThis.2 m3, Hj.inThis.2 m4⟩]
      unfold reindex
      rw [same_index hf.nodupA (Hf.this m2) hj', same_index ht.nodupA (Ht.this m3) hk', same_index hj.nodupA (Hj.this m4) hl]
    · intro _ hn
      show padArr C.length E.length G.length pad (reindex pf.perm pt.perm pj.perm a) (pf.order.getD j 0) (pt.order.getD k 0) (pj.order.getD l 0) = _
      unfold padArr
      rw [if_neg (by rw [Hf.inThis, Ht.inThis, Hj.inThis]; exact hn)]

end arrays

/-! ### `__add__` -/

variable [Zero Q]

section
variable {so : Sorts K} {blank : V} {this other res : Obj K R V Q}

/-- A call that succeeds. -/
theorem add_inv (h : add so blank this other = .ok res) :
    this.wide = other.wide ∧ this.ranged = other.ranged ∧ this.flexJones.isSome = other.flexJones.isSome ∧ timeGuard so this other = .ok () ∧
    ¬((jonesPlan so this other).ia ≠ [] ∧ (timePlan so this other).ia ≠ [] ∧ (freqPlan so this other).ia ≠ [] ∧ (antPlan so this other).ia ≠ []) ∧
    res = {
        wide := this.wide
        delay := this.delay
        ranged := this.ranged
        ants := mergeRow (antPlan so this other) this.ants other.ants
        freq := if this.wide then this.freq else mergeRow (freqPlan so this other) this.freq other.freq
        ids := if this.wide then this.ids else mergeRow (freqPlan so this other) this.ids other.ids
        width := if this.wide then this.width else mergeRow (freqPlan so this other) this.width other.width
        ranges := if this.wide then mergeRow (freqPlan so this other) this.ranges other.ranges else this.ranges
        spws := if this.wide then mergeRow (freqPlan so this other) this.spws other.spws else (mergedWins this other (freqPlan so this other)).1
        flexJones := if this.wide then wideJones this other (freqPlan so this other) else (mergedWins this other (freqPlan so this other)).2
        times := mergeRow (timePlan so this other) this.times other.times
        jones := mergeRow (jonesPlan so this other) this.jones other.jones
        data := mergeArr4 blank this.ants.length this.nf this.times.length this.jones.length (antPlan so this other) (freqPlan so this other)
          (timePlan so this other) (jonesPlan so this other) this.data (some other.data)
        quality :=
          if this.quality.isSome || other.quality.isSome then
            some (mergeArr4 0 this.ants.length this.nf this.times.length this.jones.length (antPlan so this other) (freqPlan so this other)
              (timePlan so this other) (jonesPlan so this other) (this.quality.getD (fun _ _ _ _ => 0)) other.quality)
          else none
        total :=
          if (antPlan so this other).new = [] ∧ (this.total.isSome ∨ other.total.isSome) then
            some (mergeTotal 0 this.nf this.times.length this.jones.length (freqPlan so this other) (timePlan so this other) (jonesPlan so this other)
              (this.total.getD (fun _ _ _ => 0)) other.total)
          else if (antPlan so this other).new = [] then this.total else none } := by
  unfold add at h
  simp only at h
  split at h
  · cases h
  rename_i h1
  split at h
  · cases h
  rename_i h2
  split at h
  · cases h
  rename_i h3
  split at h
  · cases h
  rename_i u h4
  split at h
  · cases h
  rename_i h5
  split at h
  · cases h
  split at h
  · cases h
  split at h
  · cases h
  simp only [Except.ok.injEq] at h
  push Not at h1 h2 h3
  exact ⟨h2, h3, h1, h4, h5, h.symm⟩

/-- The plans of the four axes. -/
structure Plans (so : Sorts K) (this other : Obj K R V Q) : Prop where
  a : PlanOk this.ants other.ants (antPlan so this other)
  f : PlanOk this.lab other.lab (freqPlan so this other)
  t : PlanOk this.keys other.keys (timePlan so this other)
  j : PlanOk this.jones other.jones (jonesPlan so this other)

omit [Zero Q] in
theorem lab_length (h : Valid this) : this.lab.length = this.nf := by
  unfold Obj.lab Obj.nf
  cases hw : this.wide with
  | true => simp
  | false => simp [List.length_zip, h.ids hw]

theorem add_plans (h1 : Valid this) (h2 : Valid other) (h : add so blank this other = .ok res) : Plans so this other := by
  obtain ⟨e1, e2, -, e3, -⟩ := add_inv h
  exact ⟨antPlan_ok so h1 h2, freqPlan_ok so h1 h2 e1, timePlan_ok so h1 h2 e2 e3, jonesPlan_ok so h1 h2⟩

omit [LinearOrder K] [Zero Q] in
theorem mergeRow_map {α β : Type} (f : α → β) (p : Plan) (a b : List α) : (mergeRow p a b).map f = mergeRow p (a.map f) (b.map f) := by
  unfold mergeRow
  rw [Add.fancy_map_comm, Add.fancy_map_comm, ← List.map_append, Add.fancy_map_comm]

/-- The labels of the sum. -/
theorem add_labels (h1 : Valid this) (h2 : Valid other) (h : add so blank this other = .ok res) :
    res.ants = mergeRow (antPlan so this other) this.ants other.ants ∧ res.lab = mergeRow (freqPlan so this other) this.lab other.lab ∧
    res.keys = mergeRow (timePlan so this other) this.keys other.keys ∧ res.jones = mergeRow (jonesPlan so this other) this.jones other.jones := by
  have P := add_plans h1 h2 h
  obtain ⟨e1, -, -, -, -, e⟩ := add_inv h
  subst e
  refine ⟨rfl, ?_, ?_, rfl⟩
  · unfold Obj.lab
    simp only
    cases hw : this.wide with
    | true =>
      have hw2 : other.wide = true := by rw [← e1]; exact hw
      simp only [hw2, if_true]
      exact mergeRow_map _ _ _ _
    | false =>
      have hw2 : other.wide = false := by rw [← e1]; exact hw
      simp only [hw2, Bool.false_eq_true, if_false]
      rw [← mergeRow_map]
      congr 1
      have C := chanPlan_ok so h1 h2 hw hw2
      have ep : freqPlan so this other = chanPlan so this other := by unfold freqPlan; simp [hw]
      rw [ep]
      let _z : Zero Unit := ⟨()⟩
      exact mergeRow_chan (this := this.chans) (other := other.chans) (chans_valid h1 hw) (chans_valid h2 hw2) C
  · exact mergeRow_map _ _ _ _

/-- **C90, labels.** The labels of the sum are those of the two objects, each once. -/
theorem cal_add_label_sets (h1 : Valid this) (h2 : Valid other) (h : add so blank this other = .ok res) :
    (res.ants.Nodup ∧ ∀ x, x ∈ res.ants ↔ x ∈ this.ants ∨ x ∈ other.ants) ∧
    (res.lab.Nodup ∧ ∀ c, c ∈ res.lab ↔ c ∈ this.lab ∨ c ∈ other.lab) ∧
    (res.keys.Nodup ∧ ∀ t, t ∈ res.keys ↔ t ∈ this.keys ∨ t ∈ other.keys) ∧
    (res.jones.Nodup ∧ ∀ z, z ∈ res.jones ↔ z ∈ this.jones ∨ z ∈ other.jones) := by
  have P := add_plans h1 h2 h
  obtain ⟨l1, l2, l3, l4⟩ := add_labels h1 h2 h
  rw [l1, l2, l3, l4]
  exact ⟨⟨final_nodup P.a, final_mem P.a⟩, ⟨final_nodup P.f, final_mem P.f⟩, ⟨final_nodup P.t, final_mem P.t⟩, ⟨final_nodup P.j, final_mem P.j⟩⟩

omit [LinearOrder K] [Zero Q] in
theorem at_has {α : Type} {o : Obj K R V Q} {a : Arr4 α} {x : Int} {c : Int × Option K} {t : K} {z : Int} {v : α} (h : At o a x c t z v) : Has o x c t z := by
  obtain ⟨i, j, k, l, q1, q2, q3, q4, -⟩ := h
  exact ⟨List.mem_of_getElem? q1, List.mem_of_getElem? q2, List.mem_of_getElem? q3, List.mem_of_getElem? q4⟩

/-- The sum exists only if no solution is in both. -/
theorem not_shares (h1 : Valid this) (h2 : Valid other) (h : add so blank this other = .ok res) : ¬ Shares this other := by
  have P := add_plans h1 h2 h
  obtain ⟨-, -, -, -, e, -⟩ := add_inv h
  rintro ⟨x, c, t, z, ⟨a1, a2, a3, a4⟩, b1, b2, b3, b4⟩
  have key : ∀ {κ : Type} [DecidableEq κ] {A B : List κ} {p : Plan} (y : κ), PlanOk A B p → y ∈ A → y ∈ B → p.ia ≠ [] := by
    intro κ _ A B p y hp ha hb hn
    obtain ⟨i, hi⟩ := List.getElem?_of_mem ha
    have := (hp.ia i).2 ⟨y, hi, hb⟩
    rw [hn] at this
    simp at this
  exact e ⟨key z P.j a4 b4, key t P.t a3 b3, key c P.f a2 b2, key x P.a a1 b1⟩

/-- What an array of the sum has. -/
theorem add_array {α : Type} (h1 : Valid this) (h2 : Valid other) (h : add so blank this other = .ok res) (pad : α) (a : Arr4 α) (b : Option (Arr4 α))
    (r : Arr4 α) (hr : r = mergeArr4 pad this.ants.length this.nf this.times.length this.jones.length (antPlan so this other) (freqPlan so this other)
      (timePlan so this other) (jonesPlan so this other) a b) (x : Int) (c : Int × Option K) (t : K) (z : Int) (hres : Has res x c t z) :
    (∀ b', b = some b' → OverlapsFirst this other → ∀ v, At other b' x c t z v → At res r x c t z v) ∧
    (∀ v, At this a x c t z v → At res r x c t z v) ∧
    (b = none ∨ ¬Has other x c t z → ¬Has this x c t z → At res r x c t z pad) := by
  have P := add_plans h1 h2 h
  obtain ⟨l1, l2, l3, l4⟩ := add_labels h1 h2 h
  obtain ⟨q1, q2, q3, q4⟩ := hres
  obtain ⟨i, hi⟩ := List.getElem?_of_mem q1
  obtain ⟨j, hj⟩ := List.getElem?_of_mem q2
  obtain ⟨k, hk⟩ := List.getElem?_of_mem q3
  obtain ⟨l, hl⟩ := List.getElem?_of_mem q4
  have H := mergeArr4_value P.a P.f P.t P.j pad a b i j k l x c t z (by rw [← l1]; exact hi) (by rw [← l2]; exact hj) (by rw [← l3]; exact hk)
    (by rw [← l4]; exact hl)
  have hkl : this.keys.length = this.times.length := by unfold Obj.keys; simp
  rw [lab_length h1, hkl, ← hr] at H
  refine ⟨?_, ?_, ?_⟩
  · rintro b' hb o v ⟨i', j', k', l', p1, p2, p3, p4, e⟩
    exact ⟨i, j, k, l, hi, hj, hk, hl, by rw [H.1 b' hb o.ants o.lab o.keys o.jones i' j' k' l' p1 p2 p3 p4, e]⟩
  · rintro v ⟨i', j', k', l', p1, p2, p3, p4, e⟩
    have hn : ¬(x ∈ other.ants ∧ c ∈ other.lab ∧ t ∈ other.keys ∧ z ∈ other.jones) := fun hb =>
      not_shares h1 h2 h ⟨x, c, t, z, at_has ⟨i', j', k', l', p1, p2, p3, p4, e⟩, hb⟩
    exact ⟨i, j, k, l, hi, hj, hk, hl, by rw [H.2.1 (.inr hn) i' j' k' l' p1 p2 p3 p4, e]⟩
  · intro hn hn'
    exact ⟨i, j, k, l, hi, hj, hk, hl, H.2.2 hn hn'⟩

theorem has_res (h1 : Valid this) (h2 : Valid other) (h : add so blank this other = .ok res) {x : Int} {c : Int × Option K} {t : K} {z : Int}
    (hh : Has this x c t z ∨ Has other x c t z) : Has res x c t z := by
  obtain ⟨s1, s2, s3, s4⟩ := cal_add_label_sets h1 h2 h
  rcases hh with ⟨a1, a2, a3, a4⟩ | ⟨a1, a2, a3, a4⟩
  · exact ⟨(s1.2 x).2 (.inl a1), (s2.2 c).2 (.inl a2), (s3.2 t).2 (.inl a3), (s4.2 z).2 (.inl a4)⟩
  · exact ⟨(s1.2 x).2 (.inr a1), (s2.2 c).2 (.inr a2), (s3.2 t).2 (.inr a3), (s4.2 z).2 (.inr a4)⟩

/-- **C90.** Every solution of this object, with its flag and its quality, is in the sum under its labels. -/
theorem cal_add_keeps_this (h1 : Valid this) (h2 : Valid other) (h : add so blank this other = .ok res) (x : Int) (c : Int × Option K) (t : K) (z : Int) :
    (∀ v, Sol this x c t z v → Sol res x c t z v) ∧ (∀ q, Qual this x c t z q → Qual res x c t z q) := by
  have e := (add_inv h).2.2.2.2.2
  constructor
  · intro v hv
    exact (add_array h1 h2 h blank this.data (some other.data) res.data (by rw [e]) x c t z (has_res h1 h2 h (.inl (at_has hv)))).2.1 v hv
  · rintro q ⟨a, ha, hv⟩
    refine ⟨_, ?_, (add_array h1 h2 h 0 a other.quality _ rfl x c t z (has_res h1 h2 h (.inl (at_has hv)))).2.1 q hv⟩
    rw [e]
    simp [ha]

/-- **C90.** Every solution of the other object, with its flag and its quality, is in the sum under its labels, if along each axis the labels of the
other object that both have come before those that only the other has. (Without this it fails: `cal_add_keeps_other_counterexample`.) -/
theorem cal_add_keeps_other_partial (h1 : Valid this) (h2 : Valid other) (ho : OverlapsFirst this other) (h : add so blank this other = .ok res)
    (x : Int) (c : Int × Option K) (t : K) (z : Int) :
    (∀ v, Sol other x c t z v → Sol res x c t z v) ∧ (∀ q, Qual other x c t z q → Qual res x c t z q) := by
  have e := (add_inv h).2.2.2.2.2
  constructor
  · intro v hv
    exact (add_array h1 h2 h blank this.data (some other.data) res.data (by rw [e]) x c t z (has_res h1 h2 h (.inr (at_has hv)))).1 _ rfl ho v hv
  · rintro q ⟨a, ha, hv⟩
    refine ⟨_, ?_, (add_array h1 h2 h 0 (this.quality.getD (fun _ _ _ _ => 0)) (some a) _ rfl x c t z (has_res h1 h2 h (.inr (at_has hv)))).1 a rfl ho q hv⟩
    rw [e]
    simp [ha]

/-- **C90.** Labels that neither object has together are zero and flagged, with quality 0. -/
theorem cal_add_pads (h1 : Valid this) (h2 : Valid other) (h : add so blank this other = .ok res) (x : Int) (c : Int × Option K) (t : K) (z : Int)
    (hres : Has res x c t z) (hn : ¬ Has other x c t z) (hn' : ¬ Has this x c t z) :
    Sol res x c t z blank ∧ (∀ a, res.quality = some a → Qual res x c t z 0) := by
  have e := (add_inv h).2.2.2.2.2
  refine ⟨(add_array h1 h2 h blank this.data (some other.data) res.data (by rw [e]) x c t z hres).2.2 (.inr hn) hn', ?_⟩
  intro a ha
  refine ⟨a, ha, ?_⟩
  have hq : a = mergeArr4 0 this.ants.length this.nf this.times.length this.jones.length (antPlan so this other) (freqPlan so this other)
      (timePlan so this other) (jonesPlan so this other) (this.quality.getD (fun _ _ _ _ => 0)) other.quality := by
    rw [e] at ha
    simp only at ha
    split at ha
    · exact (Option.some.inj ha).symm
    · cases ha
  exact (add_array h1 h2 h 0 _ _ a hq x c t z hres).2.2 (.inr hn) hn'

/-- **C90.** Solutions of an object without qualities have quality 0 in the sum with one that has them. -/
theorem cal_add_no_quality (h1 : Valid this) (h2 : Valid other) (h : add so blank this other = .ok res) (x : Int) (c : Int × Option K) (t : K) (z : Int) :
    (this.quality = none → other.quality.isSome = true → Has this x c t z → Qual res x c t z 0) ∧
    (other.quality = none → this.quality.isSome = true → Has other x c t z → Qual res x c t z 0) ∧
    (res.quality = none ↔ this.quality = none ∧ other.quality = none) := by
  have e := (add_inv h).2.2.2.2.2
  refine ⟨?_, ?_, ?_⟩
  · intro hq hq' hh
    obtain ⟨i, hi⟩ := List.getElem?_of_mem hh.1
    obtain ⟨j, hj⟩ := List.getElem?_of_mem hh.2.1
    obtain ⟨k, hk⟩ := List.getElem?_of_mem hh.2.2.1
    obtain ⟨l, hl⟩ := List.getElem?_of_mem hh.2.2.2
    refine ⟨_, ?_, (add_array h1 h2 h 0 (fun _ _ _ _ => 0) other.quality _ rfl x c t z (has_res h1 h2 h (.inl hh))).2.1 0 ⟨i, j, k, l, hi, hj, hk, hl, rfl⟩⟩
    rw [e]
    simp [hq, hq']
  · intro hq hq' hh
    obtain ⟨a, ha⟩ := Option.isSome_iff_exists.1 hq'
    refine ⟨_, ?_, (add_array h1 h2 h 0 a none _ rfl x c t z (has_res h1 h2 h (.inr hh))).2.2 (.inl rfl) (fun hth => not_shares h1 h2 h ⟨x, c, t, z, hth, hh⟩)⟩
    rw [e]
    simp [ha, hq]
  · rw [e]
    cases this.quality <;> cases other.quality <;> simp

end
end Verif.CalAdd
