import Verif.CalAdd.Props

/-! C90, C91, continued: the times, the order of the labels, the total quality, and exactly which calibration objects can be combined. -/
namespace Verif.CalAdd
open Verif.Np Verif.FreqSort Verif.Add

variable {K R V Q : Type} [LinearOrder K] [Zero Q]
variable {so : Sorts K} {blank : V} {this other res : Obj K R V Q}

/-! ### Times -/

omit [LinearOrder K] [Zero Q] in
theorem mem_times_key {o : Obj K R V Q} (k : Nat) (r : Row K R) (h : o.times[k]? = some r) : o.keys[k]? = some r.time := by
  unfold Obj.keys
  rw [List.getElem?_map, h]; rfl

/-- **C90, times.** What the sum has for a time is what this object has for it, or what the other has if this object does not have the time. -/
theorem cal_add_rows (h1 : Valid this) (h2 : Valid other) (h : add so blank this other = .ok res) (r : Row K R) :
    r ∈ res.times ↔ r ∈ this.times ∨ (r ∈ other.times ∧ r.time ∉ this.keys) := by
  have P := (add_plans h1 h2 h).t
  have hl := (add_labels h1 h2 h).2.2.1
  have e : res.times = mergeRow (timePlan so this other) this.times other.times := by rw [(add_inv h).2.2.2.2.2]
  have l1 : this.times.length = this.keys.length := by unfold Obj.keys; simp
  have l2 : other.times.length = other.keys.length := by unfold Obj.keys; simp
  have key : ∀ (i : Nat) (x : K), res.keys[i]? = some x → (∀ j : Nat, this.keys[j]? = some x → res.times[i]? = this.times[j]?) ∧
      (x ∉ this.keys → ∀ j : Nat, other.keys[j]? = some x → res.times[i]? = other.times[j]?) := by
    intro i x hx
    rw [e]
    exact mergeRow_value P _ _ l1 l2 i x (by rw [← hl]; exact hx)
  have hm := final_mem P
  rw [← hl] at hm
  constructor
  · intro hr
    obtain ⟨i, hi⟩ := List.getElem?_of_mem hr
    have hx := mem_times_key i r hi
    obtain ⟨k1, k2⟩ := key i _ hx
    by_cases hin : r.time ∈ this.keys
    · obtain ⟨j, hj⟩ := List.getElem?_of_mem hin
      left
      exact List.mem_of_getElem? ((k1 j hj).symm.trans hi)
    · obtain ⟨j, hj⟩ := List.getElem?_of_mem (((hm _).1 (List.mem_of_getElem? hx)).resolve_left hin)
      right
      exact ⟨List.mem_of_getElem? ((k2 hin j hj).symm.trans hi), hin⟩
  · rintro (hr | ⟨hr, hn⟩)
    · obtain ⟨j, hj⟩ := List.getElem?_of_mem hr
      have hx := mem_times_key j r hj
      obtain ⟨i, hi⟩ := List.getElem?_of_mem ((hm r.time).2 (.inl (List.mem_of_getElem? hx)))
      exact List.mem_of_getElem? (((key i _ hi).1 j hx).trans hj)
    · obtain ⟨j, hj⟩ := List.getElem?_of_mem hr
      have hx := mem_times_key j r hj
      obtain ⟨i, hi⟩ := List.getElem?_of_mem ((hm r.time).2 (.inr (List.mem_of_getElem? hx)))
      exact List.mem_of_getElem? (((key i _ hi).2 hn j hx).trans hj)

/-- **C90, channels.** Channels keep their widths and windows of wide-band objects their frequency ranges. -/
theorem cal_add_widths (h1 : Valid this) (h2 : Valid other) (h : add so blank this other = .ok res) (c : Int × Option K) :
    (this.wide = false → (c ∈ this.lab → Follows res.lab this.lab res.width this.width c) ∧
      (c ∉ this.lab → Follows res.lab other.lab res.width other.width c)) ∧
    (this.wide = true → (c ∈ this.lab → Follows res.lab this.lab res.ranges this.ranges c) ∧
      (c ∉ this.lab → Follows res.lab other.lab res.ranges other.ranges c)) := by
  have P := (add_plans h1 h2 h).f
  have hl := (add_labels h1 h2 h).2.1
  obtain ⟨ew, -, -, -, -, e⟩ := add_inv h
  constructor
  · intro hw
    have hw2 : other.wide = false := by rw [← ew]; exact hw
    have e' : res.width = mergeRow (freqPlan so this other) this.width other.width := by rw [e]; simp [hw]
    have l1 : this.width.length = this.lab.length := by rw [lab_length h1, h1.width hw]; unfold Obj.nf; simp [hw]
    have l2 : other.width.length = other.lab.length := by rw [lab_length h2, h2.width hw2]; unfold Obj.nf; simp [hw2]
    constructor
    · intro _ i j hi hj
      rw [e']
      exact (mergeRow_value P _ _ l1 l2 i c (by rw [← hl]; exact hi)).1 j hj
    · intro hn i j hi hj
      rw [e']
      exact (mergeRow_value P _ _ l1 l2 i c (by rw [← hl]; exact hi)).2 hn j hj
  · intro hw
    have hw2 : other.wide = true := by rw [← ew]; exact hw
    have e' : res.ranges = mergeRow (freqPlan so this other) this.ranges other.ranges := by rw [e]; simp [hw]
    have l1 : this.ranges.length = this.lab.length := by rw [lab_length h1, h1.ranges hw]; unfold Obj.nf; simp [hw]
    have l2 : other.ranges.length = other.lab.length := by rw [lab_length h2, h2.ranges hw2]; unfold Obj.nf; simp [hw2]
    constructor
    · intro _ i j hi hj
      rw [e']
      exact (mergeRow_value P _ _ l1 l2 i c (by rw [← hl]; exact hi)).1 j hj
    · intro hn i j hi hj
      rw [e']
      exact (mergeRow_value P _ _ l1 l2 i c (by rw [← hl]; exact hi)).2 hn j hj

/-! ### Order -/

theorem fancy_argsort_sorted {α κ : Type} [LinearOrder κ] (s : Argsort κ) (f : α → κ) (l : List α) :
    (fancy l (s.run (l.map f))).Pairwise (fun a b => f a ≤ f b) := by
  obtain ⟨-, h2⟩ := s.sorts (l.map f)
  unfold fancy
  rw [List.pairwise_filterMap]
  refine h2.imp ?_
  intro i j h a ha b hb
  exact h (f a) (f b) (by rw [List.getElem?_map, ha]; rfl) (by rw [List.getElem?_map, hb]; rfl)

theorem new_ne_nil {κ : Type} [LinearOrder κ] {A B : List κ} (h : ∃ x ∈ B, x ∉ A) : newInds A B ≠ [] := by
  obtain ⟨x, hx, hn⟩ := h
  obtain ⟨i, hi⟩ := List.getElem?_of_mem hx
  have : i ∈ newInds A B := by
    unfold newInds
    rw [mem_whereIdx]
    exact ⟨x, hi, by simpa using hn⟩
  intro e
  rw [e] at this
  simp at this

theorem axisPlan_sorted {κ μ : Type} [LinearOrder κ] [LinearOrder μ] (s : Argsort μ) (f : κ → μ) {A B : List κ} (h : ∃ x ∈ B, x ∉ A) :
    (mergeRow (axisPlan (fun l => s.run (l.map f)) A B) A B).Pairwise (fun a b => f a ≤ f b) := by
  unfold mergeRow axisPlan
  simp only
  rw [if_neg (new_ne_nil h)]
  exact fancy_argsort_sorted s f _

/-- **C90, order.** Along an axis to which the other object adds labels, the labels of the sum ascend: antenna numbers, times, the absolute values of the
Jones components, and the windows of wide-band objects. -/
theorem cal_add_sorted (h1 : Valid this) (h2 : Valid other) (h : add so blank this other = .ok res) :
    ((∃ x ∈ other.ants, x ∉ this.ants) → res.ants.Pairwise (· ≤ ·)) ∧
    ((∃ t ∈ other.keys, t ∉ this.keys) → res.keys.Pairwise (· ≤ ·)) ∧
    ((∃ z ∈ other.jones, z ∉ this.jones) → res.jones.Pairwise (fun a b => |a| ≤ |b|)) ∧
    (this.wide = true → (∃ w ∈ other.spws, w ∉ this.spws) → res.spws.Pairwise (· ≤ ·)) := by
  obtain ⟨l1, -, l3, l4⟩ := add_labels h1 h2 h
  refine ⟨?_, ?_, ?_, ?_⟩
  · intro hx
    rw [l1]
    have := axisPlan_sorted so.int id hx
    simp only [List.map_id] at this
    exact this
  · intro hx
    rw [l3]
    have := axisPlan_sorted so.num id hx
    simp only [List.map_id] at this
    exact this
  · intro hx
    rw [l4]
    exact axisPlan_sorted so.int (fun j => |j|) hx
  · intro hw hx
    have e : res.spws = mergeRow (widePlan so this other) this.spws other.spws := by
      rw [(add_inv h).2.2.2.2.2]
      simp only [hw, if_true]
      unfold freqPlan
      simp [hw]
    rw [e]
    have := axisPlan_sorted so.int id hx
    simp only [List.map_id] at this
    exact this

/-! ### Total quality -/

omit [Zero Q] in
theorem antPlan_new : (antPlan so this other).new = [] ↔ ∀ x ∈ other.ants, x ∈ this.ants := by
  constructor
  · intro h x hx
    by_contra hn
    exact new_ne_nil ⟨x, hx, hn⟩ h
  · intro h
    show newInds this.ants other.ants = []
    rw [List.eq_nil_iff_forall_not_mem]
    intro i hi
    unfold newInds at hi
    rw [mem_whereIdx] at hi
    obtain ⟨x, hx, hp⟩ := hi
    have := h x (List.mem_of_getElem? hx)
    simp [this] at hp

theorem res_total (h : add so blank this other = .ok res) :
    res.total = if (antPlan so this other).new = [] ∧ (this.total.isSome ∨ other.total.isSome) then
            some (mergeTotal 0 this.nf this.times.length this.jones.length (freqPlan so this other) (timePlan so this other) (jonesPlan so this other)
              (this.total.getD (fun _ _ _ => 0)) other.total)
          else if (antPlan so this other).new = [] then this.total else none := by
  rw [(add_inv h).2.2.2.2.2]

/-- **C90, total quality.** If the other object adds antennas, the sum has no total quality; otherwise it has one if one of the two has. -/
theorem cal_add_total_kept (h : add so blank this other = .ok res) :
    res.total.isSome = true ↔ (∀ x ∈ other.ants, x ∈ this.ants) ∧ (this.total.isSome = true ∨ other.total.isSome = true) := by
  rw [res_total h, ← antPlan_new (so := so)]
  by_cases hn : (antPlan so this other).new = []
  · by_cases ht : (this.total.isSome = true ∨ other.total.isSome = true)
    · simp [hn, ht]
    · push Not at ht
      simp [hn, ht.1, ht.2]
  · simp [hn]

/-- **C90, total quality.** The total quality of this object is kept under its labels, and that of the other if along each axis the labels both have come
first; nothing else but zeros is in it. -/
theorem cal_add_total_partial (h1 : Valid this) (h2 : Valid other) (h : add so blank this other = .ok res) (hne : other.ants ≠ [])
    (hs : ∀ x ∈ other.ants, x ∈ this.ants) (c : Int × Option K) (t : K) (z : Int) :
    (∀ q, Tot this c t z q → Tot res c t z q) ∧ (OverlapsFirst this other → ∀ q, Tot other c t z q → Tot res c t z q) ∧
    ((∀ q, ¬ Tot this c t z q) → (∀ q, ¬ Tot other c t z q) → ∀ q, Tot res c t z q → q = 0) := by
  have P := add_plans h1 h2 h
  obtain ⟨-, l2, l3, l4⟩ := add_labels h1 h2 h
  have hsets := cal_add_label_sets h1 h2 h
  have hnew := (antPlan_new (so := so)).2 hs
  have hkl : this.keys.length = this.times.length := by unfold Obj.keys; simp
  have V := fun (j k l : Nat) (hj : res.lab[j]? = some c) (hk : res.keys[k]? = some t) (hl : res.jones[l]? = some z) =>
    mergeTotal_value P.f P.t P.j (0 : Q) (this.total.getD (fun _ _ _ => 0)) other.total j k l c t z (by rw [← l2]; exact hj) (by rw [← l3]; exact hk)
      (by rw [← l4]; exact hl)
  rw [lab_length h1, hkl] at V
  have nosh : c ∈ this.lab → t ∈ this.keys → z ∈ this.jones → ¬(c ∈ other.lab ∧ t ∈ other.keys ∧ z ∈ other.jones) := by
    rintro a2 a3 a4 ⟨b2, b3, b4⟩
    obtain ⟨x, hx⟩ := List.exists_mem_of_ne_nil _ hne
    exact not_shares h1 h2 h ⟨x, c, t, z, ⟨hs x hx, a2, a3, a4⟩, hx, b2, b3, b4⟩
  have tot := res_total h
  refine ⟨?_, ?_, ?_⟩
  · rintro q ⟨a, ha, j', k', l', q2, q3, q4, hq⟩
    have m2 := List.mem_of_getElem? q2
    have m3 := List.mem_of_getElem? q3
    have m4 := List.mem_of_getElem? q4
    obtain ⟨j, hj⟩ := List.getElem?_of_mem ((hsets.2.1.2 c).2 (.inl m2))
    obtain ⟨k, hk⟩ := List.getElem?_of_mem ((hsets.2.2.1.2 t).2 (.inl m3))
    obtain ⟨l, hl⟩ := List.getElem?_of_mem ((hsets.2.2.2.2 z).2 (.inl m4))
    rw [if_pos ⟨hnew, .inl (by rw [ha]; rfl)⟩] at tot
    refine ⟨_, tot, j, k, l, hj, hk, hl, ?_⟩
    rw [(V j k l hj hk hl).2.1 (.inr (nosh m2 m3 m4)) j' k' l' q2 q3 q4, ha]
    exact hq
  · rintro ho q ⟨b, hb, j', k', l', q2, q3, q4, hq⟩
    obtain ⟨j, hj⟩ := List.getElem?_of_mem ((hsets.2.1.2 c).2 (.inr (List.mem_of_getElem? q2)))
    obtain ⟨k, hk⟩ := List.getElem?_of_mem ((hsets.2.2.1.2 t).2 (.inr (List.mem_of_getElem? q3)))
    obtain ⟨l, hl⟩ := List.getElem?_of_mem ((hsets.2.2.2.2 z).2 (.inr (List.mem_of_getElem? q4)))
    rw [if_pos ⟨hnew, .inr (by rw [hb]; rfl)⟩] at tot
    refine ⟨_, tot, j, k, l, hj, hk, hl, ?_⟩
    rw [(V j k l hj hk hl).1 b hb ho.lab ho.keys ho.jones j' k' l' q2 q3 q4]
    exact hq
  · rintro ht hot q ⟨r, hr, j, k, l, hj, hk, hl, hq⟩
    have hv := V j k l hj hk hl
    by_cases hsome : this.total.isSome = true ∨ other.total.isSome = true
    · rw [if_pos ⟨hnew, hsome⟩] at tot
      rw [tot, Option.some.injEq] at hr
      have hcond : other.total = none ∨ ¬(c ∈ other.lab ∧ t ∈ other.keys ∧ z ∈ other.jones) := by
        cases hb : other.total with
        | none => exact .inl rfl
        | some b =>
          right
          rintro ⟨b2, b3, b4⟩
          obtain ⟨j', p2⟩ := List.getElem?_of_mem b2
          obtain ⟨k', p3⟩ := List.getElem?_of_mem b3
          obtain ⟨l', p4⟩ := List.getElem?_of_mem b4
          exact hot _ ⟨b, hb, j', k', l', p2, p3, p4, rfl⟩
      rw [← hq, ← hr]
      by_cases hth : c ∈ this.lab ∧ t ∈ this.keys ∧ z ∈ this.jones
      · obtain ⟨j', p2⟩ := List.getElem?_of_mem hth.1
        obtain ⟨k', p3⟩ := List.getElem?_of_mem hth.2.1
        obtain ⟨l', p4⟩ := List.getElem?_of_mem hth.2.2
        rw [hv.2.1 hcond j' k' l' p2 p3 p4]
        cases ha : this.total with
        | none => rfl
        | some a => exact absurd ⟨a, ha, j', k', l', p2, p3, p4, rfl⟩ (ht _)
      · exact hv.2.2 hcond hth
    · have : res.total.isSome = true := by rw [hr]; rfl
      exact absurd ((cal_add_total_kept h).1 this).2 hsome

/-! ### Outcome -/

/-- A time that both objects have belongs to two phase centers, or to two reference antennas. -/
def RowsDiffer (f : Row K R → Option Int) (this other : Obj K R V Q) : Prop := ∃ a ∈ this.times, ∃ b ∈ other.times, a.time = b.time ∧ f a ≠ f b

omit [LinearOrder K] [Zero Q] in
theorem map_fancy_eq {α β γ : Type} (f : α → β) (A B : List α) (c : List γ) (p q : γ → Nat) (hp : ∀ x ∈ c, p x < A.length) (hq : ∀ x ∈ c, q x < B.length) :
    (fancy A (c.map p)).map f = (fancy B (c.map q)).map f ↔ ∀ x ∈ c, (A[p x]?).map f = (B[q x]?).map f := by
  induction c with
  | nil => simp [fancy]
  | cons x c ih =>
    have i1 := hp x (by simp)
    have i2 := hq x (by simp)
    have ih' := ih (fun y hy => hp y (by simp [hy])) (fun y hy => hq y (by simp [hy]))
    unfold fancy at ih' ⊢
    simp only [List.map_cons, List.filterMap_cons, List.getElem?_eq_getElem i1, List.getElem?_eq_getElem i2, List.cons.injEq, ih', List.forall_mem_cons,
      Option.map_some, Option.some.injEq]

omit [Zero Q] in
theorem rowsDiffer_iff (h1 : Valid this) (h2 : Valid other) (f : Row K R → Option Int) :
    rowsDiffer f this other (timePlan so this other) = true ↔ RowsDiffer f this other := by
  unfold rowsDiffer
  rw [decide_eq_true_iff]
  have hc := inter_common this.keys other.keys
  have l1 : this.keys.length = this.times.length := by unfold Obj.keys; simp
  have l2 : other.keys.length = other.times.length := by unfold Obj.keys; simp
  have e1 : (timePlan so this other).ia = (inter this.keys other.keys).map (fun x => this.keys.idxOf x) := rfl
  have e2 : (timePlan so this other).ib = (inter this.keys other.keys).map (fun x => other.keys.idxOf x) := rfl
  rw [e1, e2, ne_eq, map_fancy_eq f this.times other.times _ _ _
    (fun x hx => by rw [← l1]; exact List.idxOf_lt_length_of_mem ((hc.mem x).1 hx).1)
    (fun x hx => by rw [← l2]; exact List.idxOf_lt_length_of_mem ((hc.mem x).1 hx).2)]
  push Not
  have get : ∀ (o : Obj K R V Q), o.keys.Nodup → ∀ (a : Row K R), a ∈ o.times → o.times[o.keys.idxOf a.time]? = some a := by
    intro o hn a ha
    obtain ⟨i, hi⟩ := List.getElem?_of_mem ha
    have hk := mem_times_key i a hi
    have h3 := List.getElem?_idxOf (List.mem_of_getElem? hk)
    rw [same_index hn h3 hk]
    exact hi
  constructor
  · rintro ⟨x, hx, hne⟩
    obtain ⟨m1, m2⟩ := (hc.mem x).1 hx
    obtain ⟨a, ha, rfl⟩ := List.mem_map.1 m1
    obtain ⟨b, hb, hab⟩ := List.mem_map.1 m2
    rw [get this h1.keys a ha, ← hab, get other h2.keys b hb] at hne
    exact ⟨a, ha, b, hb, hab.symm, fun e => hne (by simp [e])⟩
  · rintro ⟨a, ha, b, hb, hab, hne⟩
    refine ⟨a.time, (hc.mem _).2 ⟨List.mem_map_of_mem ha, hab ▸ List.mem_map_of_mem hb⟩, ?_⟩
    rw [get this h1.keys a ha, hab, get other h2.keys b hb]
    simpa using hne

/-- The total quality of the sum would have to be made, and the code fails. -/
def TotalFails (this other : Obj K R V Q) : Prop :=
  (∀ x ∈ other.ants, x ∈ this.ants) ∧ (this.total.isSome = true ∨ other.total.isSome = true) ∧
    (((∃ t ∈ other.keys, t ∉ this.keys) ∧ this.quality = none ∧ other.quality = none) ∨ (this.total = none ∧ (this.delay = true ∨ this.wide = true) ∧ this.nf ≠ 1))

omit [Zero Q] in
theorem timePlan_new : (timePlan so this other).new = [] ↔ ∀ x ∈ other.keys, x ∈ this.keys := by
  constructor
  · intro h x hx
    by_contra hn
    exact new_ne_nil ⟨x, hx, hn⟩ h
  · intro h
    show newInds this.keys other.keys = []
    rw [List.eq_nil_iff_forall_not_mem]
    intro i hi
    unfold newInds at hi
    rw [mem_whereIdx] at hi
    obtain ⟨x, hx, hp⟩ := hi
    have := h x (List.mem_of_getElem? hx)
    simp [this] at hp

omit [Zero Q] in
theorem totalFails_iff :
    totalFails this other (antPlan so this other) (timePlan so this other) = true ↔ TotalFails this other := by
  unfold totalFails TotalFails
  simp only [Bool.and_eq_true, Bool.or_eq_true, decide_eq_true_eq, antPlan_new, Bool.not_eq_true', Bool.or_eq_false_iff, Option.isSome_eq_false_iff,
    Option.isNone_iff_eq_none, ne_eq, timePlan_new]
  push Not
  have hnf : this.nfTotal ≠ this.nf ↔ (this.delay = true ∨ this.wide = true) ∧ this.nf ≠ 1 := by
    unfold Obj.nfTotal
    by_cases hw : this.delay = true ∨ this.wide = true
    · rw [if_pos hw]
      simp only [hw, true_and]
      exact ne_comm
    · rw [if_neg hw]
      push Not at hw
      unfold Obj.nf
      simp [hw.2, hw.1]
  rw [hnf, and_assoc]

omit [Zero Q] in
theorem timeGuard_iff (h1 : Valid this) (h2 : Valid other) (hr : this.ranged = other.ranged) :
    (timeGuard so this other = .ok () ↔ (this.ranged = true → ¬ SomeOverlap (this.timeRanges ++ other.timeRanges))) := by
  unfold timeGuard
  cases r1 : this.ranged with
  | false => simp
  | true =>
    have r2 : other.ranged = true := by rw [← hr]; exact r1
    have hl : ∀ r ∈ this.timeRanges ++ other.timeRanges, r.1 < r.2 := by
      intro r hr
      rcases List.mem_append.1 hr with hr | hr
      · obtain ⟨a, ha, rfl⟩ := List.mem_map.1 hr
        obtain ⟨s, hs, hlt⟩ := h1.stops r1 a ha
        simpa [hs] using hlt
      · obtain ⟨a, ha, rfl⟩ := List.mem_map.1 hr
        obtain ⟨s, hs, hlt⟩ := h2.stops r2 a ha
        simpa [hs] using hlt
    obtain ⟨b, hb, hiff⟩ := range_overlap_iff so.num _ hl
    simp only [if_true, hb, forall_true_left]
    rw [← hiff]
    cases b <;> simp

omit [Zero Q] in
theorem shares_iff (P : Plans so this other) :
    ((jonesPlan so this other).ia ≠ [] ∧ (timePlan so this other).ia ≠ [] ∧ (freqPlan so this other).ia ≠ [] ∧ (antPlan so this other).ia ≠ []) ↔
      Shares this other := by
  have key : ∀ {κ : Type} [DecidableEq κ] {A B : List κ} {p : Plan}, PlanOk A B p → (p.ia ≠ [] ↔ ∃ y, y ∈ A ∧ y ∈ B) := by
    intro κ _ A B p hp
    constructor
    · intro hne
      obtain ⟨i, hi⟩ := List.exists_mem_of_ne_nil _ hne
      obtain ⟨y, hy, hb⟩ := (hp.ia i).1 hi
      exact ⟨y, List.mem_of_getElem? hy, hb⟩
    · rintro ⟨y, ha, hb⟩ hn
      obtain ⟨i, hi⟩ := List.getElem?_of_mem ha
      have := (hp.ia i).2 ⟨y, hi, hb⟩
      rw [hn] at this
      simp at this
  rw [key P.j, key P.t, key P.f, key P.a]
  unfold Shares Has
  constructor
  · rintro ⟨⟨z, z1, z2⟩, ⟨t, t1, t2⟩, ⟨c, c1, c2⟩, x, x1, x2⟩
    exact ⟨x, c, t, z, ⟨x1, c1, t1, z1⟩, x2, c2, t2, z2⟩
  · rintro ⟨x, c, t, z, ⟨x1, c1, t1, z1⟩, x2, c2, t2, z2⟩
    exact ⟨⟨z, z1, z2⟩, ⟨t, t1, t2⟩, ⟨c, c1, c2⟩, x, x1, x2⟩

/-- **C91.** Exactly which calibration objects can be combined: both have one Jones component per window or neither, both are wide-band or neither, both have
time ranges or neither; no two time ranges overlap; they have no solution in common; at times both have they agree on the phase center and on the
reference antenna; and the total quality can be made. -/
theorem cal_add_outcome (h1 : Valid this) (h2 : Valid other) :
    (∃ res, add so blank this other = .ok res) ↔
      this.flexJones.isSome = other.flexJones.isSome ∧ this.wide = other.wide ∧ this.ranged = other.ranged ∧
      (this.ranged = true → ¬ SomeOverlap (this.timeRanges ++ other.timeRanges)) ∧ ¬ Shares this other ∧
      ¬ RowsDiffer Row.center this other ∧ ¬ RowsDiffer Row.ref this other ∧ ¬ TotalFails this other := by
  constructor
  · rintro ⟨res, h⟩
    obtain ⟨e1, e2, e3, e4, -, -⟩ := add_inv h
    refine ⟨e3, e1, e2, (timeGuard_iff h1 h2 e2).1 e4, not_shares h1 h2 h, ?_⟩
    rw [← rowsDiffer_iff (so := so) h1 h2, ← rowsDiffer_iff (so := so) h1 h2, ← totalFails_iff (so := so)]
    unfold add at h
    simp only at h
    rw [if_neg (by rw [e3]; simp), if_neg (by rw [e1]; simp), if_neg (by rw [e2]; simp), e4] at h
    simp only at h
    split at h
    · cases h
    split at h
    · cases h
    rename_i q1
    split at h
    · cases h
    rename_i q2
    split at h
    · cases h
    rename_i q3
    exact ⟨q1, q2, q3⟩
  · rintro ⟨e3, e1, e2, e4, e5, q1, q2, q3⟩
    have g := (timeGuard_iff (so := so) h1 h2 e2).2 e4
    have P : Plans so this other := ⟨antPlan_ok so h1 h2, freqPlan_ok so h1 h2 e1, timePlan_ok so h1 h2 e2 g, jonesPlan_ok so h1 h2⟩
    rw [← rowsDiffer_iff (so := so) h1 h2] at q1 q2
    rw [← totalFails_iff (so := so)] at q3
    rw [← shares_iff P] at e5
    unfold add
    simp only
    rw [if_neg (by rw [e3]; simp), if_neg (by rw [e1]; simp), if_neg (by rw [e2]; simp), g]
    simp only
    rw [if_neg e5, if_neg q1, if_neg q2, if_neg q3]
    exact ⟨_, rfl⟩

/-- **C91.** Objects with time ranges that have a time range in common cannot be combined, whatever else differs: not for different antennas, channels or
Jones components. -/
theorem cal_add_shared_range_refused (h1 : Valid this) (h2 : Valid other) (hr : this.ranged = true) (a b : Row K R) (ha : a ∈ this.times)
    (hb : b ∈ other.times) (hab : a.time = b.time) : ¬ ∃ res, add so blank this other = .ok res := by
  rintro ⟨res, h⟩
  obtain ⟨-, e2, -, e4, -, -⟩ := add_inv h
  exact ranged_disjoint so h1 h2 hr (by rw [← e2]; exact hr) e4 _ (List.mem_map_of_mem hb) (hab ▸ List.mem_map_of_mem ha)

end Verif.CalAdd
