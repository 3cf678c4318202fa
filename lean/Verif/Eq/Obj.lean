import Verif.Eq.Props

/-!
# Proofs about comparing objects and about checks
-/

namespace Verif.Eq

open Verif.Pol (Str)

set_option linter.unusedSectionVars false

theorem andM_true {l : List (Except Err Bool)} : andM l = .ok true ↔ ∀ x ∈ l, x = .ok true := by
  induction l with
  | nil => simp [andM]
  | cons a l ih =>
    cases a with
    | error e => simp [andM]
    | ok b =>
      simp only [andM, List.forall_mem_cons, Except.ok.injEq]
      cases h : andM l with
      | error e =>
        rw [h] at ih
        simp only [reduceCtorEq, false_iff] at ih ⊢
        exact fun h => ih h.2
      | ok c =>
        rw [h] at ih
        simp only [Except.ok.injEq, Bool.and_eq_true] at ih ⊢
        rw [ih]

theorem andM_ok {l : List (Except Err Bool)} : (∃ r, andM l = .ok r) ↔ ∀ x ∈ l, ∃ b, x = .ok b := by
  induction l with
  | nil => simp [andM]
  | cons a l ih =>
    cases a with
    | error e => simp [andM]
    | ok b =>
      simp only [andM, List.forall_mem_cons]
      cases h : andM l with
      | error e =>
        rw [h] at ih
        simp only [reduceCtorEq, exists_false, false_iff] at ih ⊢
        exact fun h => ih h.2
      | ok c =>
        rw [h] at ih
        simp only [Except.ok.injEq, exists_eq', true_iff] at ih ⊢
        exact ⟨trivial, ih⟩

/-- The names of the parameters of an object that are looked at. -/
def Looked {S : Type} (o : Object S) (checkExtra : Bool) (x : Str) : Prop :=
  ∃ a ∈ o.attrs, a.name = x ∧ (a.required = true ∨ checkExtra = true)

/-- Two objects have parameters of the same names, required or not. -/
def SameNames {S : Type} (a b : Object S) (required : Bool) : Prop :=
  ∀ x : Str, (∃ p ∈ a.attrs, p.name = x ∧ p.required = required) ↔ ∃ p ∈ b.attrs, p.name = x ∧ p.required = required

/-- A name given without a leading underscore means the one with it. -/
def Named (allowed : List Str) (x : Str) : Prop :=
  ∃ y ∈ allowed, (y = x ∧ ∃ r, x = '_' :: r) ∨ ((∀ r, y ≠ '_' :: r) ∧ x = '_' :: y)

theorem mem_underscored {allowed : List Str} {x : Str} : x ∈ allowed.map underscored ↔ Named allowed x := by
  simp only [List.mem_map, Named]
  refine exists_congr fun y => and_congr_right fun _ => ?_
  by_cases h : ∃ r, y = '_' :: r
  · obtain ⟨r, rfl⟩ := h
    simp only [underscored]
    constructor
    · rintro rfl; exact Or.inl ⟨rfl, r, rfl⟩
    · rintro (⟨h, _⟩ | ⟨h, _⟩)
      · exact h
      · exact absurd rfl (h r)
  · have h' : ∀ r, y ≠ '_' :: r := fun r hr => h ⟨r, hr⟩
    have : underscored y = '_' :: y := by
      unfold underscored
      split
      · exact absurd rfl (h' _)
      · rfl
    rw [this]
    constructor
    · rintro rfl; exact Or.inr ⟨h', rfl⟩
    · rintro (⟨rfl, r, hr⟩ | ⟨_, h⟩)
      · exact absurd hr (h' r)
      · exact h.symm

theorem mem_names {S : Type} {o : Object S} {r : Bool} {x : Str} :
    x ∈ o.names r ↔ ∃ p ∈ o.attrs, p.name = x ∧ p.required = r := by
  simp only [Object.names, List.mem_map, List.mem_filter, beq_iff_eq]
  constructor
  · rintro ⟨p, ⟨h1, h2⟩, h3⟩; exact ⟨p, h1, h3, h2⟩
  · rintro ⟨p, h1, h3, h2⟩; exact ⟨p, ⟨h1, h2⟩, h3⟩

theorem sameNames_iff {S : Type} {a b : Object S} {r : Bool} :
    ((∀ x ∈ a.names r, x ∈ b.names r) ∧ ∀ x ∈ b.names r, x ∈ a.names r) ↔ SameNames a b r := by
  simp only [SameNames, mem_names]
  exact ⟨fun h x => ⟨h.1 x, h.2 x⟩, fun h => ⟨fun x => (h x).1, fun x => (h x).2⟩⟩

theorem get_of_name {S : Type} {o : Object S} {x : Str} (h : ∃ p ∈ o.attrs, p.name = x) : ∃ s, o.get x = some s := by
  obtain ⟨p, hp, hx⟩ := h
  cases hf : o.attrs.find? (fun a => decide (a.name = x)) with
  | none =>
    have := List.find?_eq_none.mp hf p hp
    simp [hx] at this
  | some b => exact ⟨b.slot, by simp [Object.get, hf]⟩

theorem get_mem {S : Type} {o : Object S} {x : Str} {s : S} (h : o.get x = some s) :
    ∃ p ∈ o.attrs, p.name = x ∧ p.slot = s := by
  simp only [Object.get, Option.map_eq_some_iff] at h
  obtain ⟨a, ha, hs⟩ := h
  have := List.find?_some ha
  simp only [decide_eq_true_eq] at this
  exact ⟨a, List.mem_of_find?_eq_some ha, this, hs⟩

theorem mem_looked {S : Type} {a : Object S} {ce : Bool} {x : Str} :
    x ∈ (a.names true) ++ (if ce then a.names false else []) ↔ Looked a ce x := by
  simp only [List.mem_append, mem_names, Looked]
  cases ce with
  | false =>
    simp
  | true =>
    simp only [if_true, mem_names, or_true, and_true]
    constructor
    · rintro (⟨p, h1, h2, _⟩ | ⟨p, h1, h2, _⟩) <;> exact ⟨p, h1, h2⟩
    · rintro ⟨p, h1, h2⟩
      cases hr : p.required
      · exact Or.inr ⟨p, h1, h2, hr⟩
      · exact Or.inl ⟨p, h1, h2, hr⟩

/-- Two objects compare equal exactly if the second is of the class of the first, they have parameters of the same
names, all those looked at and not allowed to differ compare equal, and comparing those allowed to differ does not
raise. -/
theorem object_eq_iff {S : Type} (inst : Nat → Nat → Bool) (slotEq : Bool → S → S → Except Err Bool) (ce : Bool)
    (allowed : List Str) (a b : Object S) :
    objEq inst slotEq ce allowed a b = .ok true ↔
      inst b.cls a.cls = true ∧ SameNames a b true ∧ (ce = true → SameNames a b false) ∧
      (∀ x, Looked a ce x → ¬ Named allowed x →
        ∃ s t, a.get x = some s ∧ b.get x = some t ∧ slotEq ce s t = .ok true) ∧
      ∀ x, Named allowed x → ∀ s, a.get x = some s → ∃ t r, b.get x = some t ∧ slotEq true s t = .ok r := by
  rw [objEq]
  by_cases h1 : inst b.cls a.cls = false
  · rw [if_pos h1]; simp [h1]
  rw [if_neg h1]
  have h1' : inst b.cls a.cls = true := by simpa using h1
  by_cases h2 : SameNames a b true
  swap
  · rw [if_pos (fun h => h2 (sameNames_iff.mp h))]; simp [h2]
  rw [if_neg (not_not.mpr (sameNames_iff.mpr h2))]
  by_cases h3 : ce = true ∧ ¬ SameNames a b false
  · rw [if_pos ⟨h3.1, fun h => h3.2 (sameNames_iff.mp h)⟩]
    constructor
    · intro h; simp at h
    · rintro ⟨_, _, h, _⟩
      exact absurd (h h3.1) h3.2
  rw [if_neg (fun h => h3 ⟨h.1, fun h' => h.2 (sameNames_iff.mpr h')⟩)]
  have h3' : ce = true → SameNames a b false := fun h => by
    by_contra h'
    exact h3 ⟨h, h'⟩
  simp only [h1', h2, true_and]
  have hA : ∀ (l m : Except Err Bool), firstM l m = .ok true ↔ l = .ok true ∧ ∃ r, m = .ok r := by
    intro l m
    cases l <;> cases m <;> simp [firstM]
  rw [hA, andM_true, andM_ok]
  simp only [List.forall_mem_map, List.mem_filter, decide_eq_true_eq, mem_looked, mem_underscored]
  constructor
  · rintro ⟨h4, h5⟩
    refine ⟨h3', fun x hx hn => ?_, fun x hx s hs => ?_⟩
    · have := h4 x ⟨hx, hn⟩
      split at this
      · rename_i s t hs ht
        exact ⟨s, t, hs, ht, this⟩
      · simp at this
    · obtain ⟨r, hr⟩ := h5 x hx
      rw [hs] at hr
      cases ht : b.get x with
      | none => rw [ht] at hr; simp at hr
      | some t => rw [ht] at hr; exact ⟨t, r, rfl, hr⟩
  · rintro ⟨_, h4, h5⟩
    refine ⟨fun x hx => ?_, fun x hn => ?_⟩
    · obtain ⟨s, t, hs, ht, he⟩ := h4 x hx.1 hx.2
      simp only [hs, ht, he]
    · cases hs : a.get x with
      | none => exact ⟨true, rfl⟩
      | some s =>
        obtain ⟨t, r, ht, he⟩ := h5 _ hn s hs
        exact ⟨r, by simp only [ht, he]⟩

/-- The list of allowed failures is changed by the call, but a second call with it does the same. -/
theorem allowed_again {S : Type} (inst : Nat → Nat → Bool) (slotEq : Bool → S → S → Except Err Bool) (ce : Bool)
    (allowed : List Str) (a b : Object S) :
    objEq inst slotEq ce (allowedAfter allowed) a b = objEq inst slotEq ce allowed a b := by
  have : (allowedAfter allowed).map underscored = allowed.map underscored := by
    rw [allowedAfter, List.map_map]
    apply List.map_congr_left
    intro y _
    show underscored (underscored y) = underscored y
    by_cases h : ∃ r, y = '_' :: r
    · obtain ⟨r, rfl⟩ := h; rfl
    · have : underscored y = '_' :: y := by
        unfold underscored
        split
        · exact absurd ⟨_, rfl⟩ h
        · rfl
      rw [this]; rfl
  unfold objEq
  rw [this]

/-- What the parameters that are allowed to differ hold does not matter, as long as comparing them does not raise. -/
theorem allowed_irrelevant {S : Type} (inst : Nat → Nat → Bool) (slotEq : Bool → S → S → Except Err Bool) (ce : Bool)
    (allowed : List Str) (a a' b : Object S) (hc : a.cls = a'.cls) (hn : ∀ r, SameNames a a' r)
    (hg : ∀ x, ¬ Named allowed x → a.get x = a'.get x)
    (hr : ∀ x, Named allowed x → ∀ s, a'.get x = some s → ∃ t r, b.get x = some t ∧ slotEq true s t = .ok r)
    (h : objEq inst slotEq ce allowed a b = .ok true) : objEq inst slotEq ce allowed a' b = .ok true := by
  rw [object_eq_iff] at h ⊢
  obtain ⟨h1, h2, h3, h4, _⟩ := h
  have ht : ∀ r, SameNames a b r → SameNames a' b r := fun r h x => (hn r x).symm.trans (h x)
  refine ⟨by rw [← hc]; exact h1, ht true h2, fun h => ht false (h3 h), fun x hx hnx => ?_, hr⟩
  have hx' : Looked a ce x := by
    obtain ⟨p, hp, hpx, hpr⟩ := hx
    obtain ⟨q, hq, hqx, hqr⟩ := (hn p.required x).mpr ⟨p, hp, hpx, rfl⟩
    exact ⟨q, hq, hqx, by rw [hqr]; exact hpr⟩
  obtain ⟨s, t, hs, ht, he⟩ := h4 x hx' hnx
  exact ⟨s, t, by rw [← hg x hnx]; exact hs, ht, he⟩

/-- If neither class is a subclass of the other and comparing the parameters is symmetric, so is comparing the objects. -/
theorem object_symm_partial {S : Type} (inst : Nat → Nat → Bool) (slotEq : Bool → S → S → Except Err Bool) (ce : Bool)
    (allowed : List Str) (a b : Object S) (hc : inst b.cls a.cls = inst a.cls b.cls)
    (hs : ∀ x s t c, a.get x = some s → b.get x = some t → slotEq c s t = slotEq c t s)
    (hn : ∀ x, Named allowed x → ((∃ s, a.get x = some s) ↔ ∃ t, b.get x = some t)) :
    objEq inst slotEq ce allowed a b = .ok true ↔ objEq inst slotEq ce allowed b a = .ok true := by
  have key : ∀ a b : Object S, inst b.cls a.cls = inst a.cls b.cls →
      (∀ x s t c, a.get x = some s → b.get x = some t → slotEq c s t = slotEq c t s) →
      (∀ x, Named allowed x → ((∃ s, a.get x = some s) ↔ ∃ t, b.get x = some t)) →
      objEq inst slotEq ce allowed a b = .ok true → objEq inst slotEq ce allowed b a = .ok true := by
    intro a b hc hs hn h
    rw [object_eq_iff] at h ⊢
    obtain ⟨h1, h2, h3, h4, h5⟩ := h
    refine ⟨by rw [← hc]; exact h1, fun x => (h2 x).symm, fun h x => (h3 h x).symm, fun x hx hnx => ?_,
      fun x hx t ht => ?_⟩
    · have hx' : Looked a ce x := by
        obtain ⟨p, hp, hpx, hpr⟩ := hx
        cases hr : p.required with
        | true =>
          obtain ⟨q, hq, hqx, hqr⟩ := (h2 x).mpr ⟨p, hp, hpx, hr⟩
          exact ⟨q, hq, hqx, Or.inl hqr⟩
        | false =>
          have hce : ce = true := by simpa [hr] using hpr
          obtain ⟨q, hq, hqx, hqr⟩ := (h3 hce x).mpr ⟨p, hp, hpx, hr⟩
          exact ⟨q, hq, hqx, Or.inr hce⟩
      obtain ⟨s, t, hs', ht', he⟩ := h4 x hx' hnx
      exact ⟨t, s, ht', hs', by rw [← hs x s t ce hs' ht']; exact he⟩
    · obtain ⟨s, hs'⟩ := (hn x hx).mpr ⟨t, ht⟩
      obtain ⟨t', r, ht', he⟩ := h5 x hx s hs'
      rw [ht] at ht'
      obtain rfl := Option.some.inj ht'
      exact ⟨s, r, hs', by rw [← hs x s t true hs' ht]; exact he⟩
  exact ⟨key a b hc hs hn, key b a hc.symm (fun x s t c h1 h2 => (hs x t s c h2 h1).symm) (fun x h => (hn x h).symm)⟩

section
variable {α β : Type} [Field α] [LinearOrder α] [IsStrictOrderedRing α] [AddCommGroup β] [Sized α β] [DecidableEq β]
variable {n : Nat}

/-- A parameter that compares equal to a copy of itself by `param_refl_partial`. -/
structure Sane (p : Param α β n) : Prop where
  rtol : 0 ≤ p.rtol
  atol : 0 ≤ p.atol
  ready : Ready p.value
  strict : p.strict = true → (∃ k sh d, p.value = .arr k sh d) ∨ p.value.kind ∈ p.expected

/-- All parameters of an object, and of the objects inside, are sane. -/
def SaneSlot : (k : Nat) → Slot α β n k → Prop
  | 0, p => Sane (α := α) (β := β) (n := n) p
  | k + 1, s => match (show Param α β n ⊕ Object (Slot α β n k) from s) with
    | .inl p => Sane p
    | .inr o => ∀ a ∈ o.attrs, SaneSlot k a.slot

theorem obj_refl {S : Type} {inst : Nat → Nat → Bool} {slotEq : Bool → S → S → Except Err Bool} (ce : Bool)
    (allowed : List Str) {a : Object S} (hi : ∀ c, inst c c = true)
    (h : ∀ p ∈ a.attrs, ∀ c, slotEq c p.slot p.slot = .ok true) : objEq inst slotEq ce allowed a a = .ok true := by
  rw [object_eq_iff]
  refine ⟨hi _, fun x => Iff.rfl, fun _ x => Iff.rfl, fun x hx _ => ?_, fun x _ s hs => ?_⟩
  · obtain ⟨p, hp, hpx, _⟩ := hx
    obtain ⟨s, hs⟩ := get_of_name (o := a) ⟨p, hp, hpx⟩
    obtain ⟨q, hq, _, rfl⟩ := get_mem hs
    exact ⟨_, _, hs, hs, h q hq ce⟩
  · obtain ⟨q, hq, _, rfl⟩ := get_mem hs
    exact ⟨_, true, hs, h q hq true⟩

theorem slot_refl (inst : Nat → Nat → Bool) (hi : ∀ c, inst c c = true) : (k : Nat) → (ce : Bool) →
    (s : Slot α β n k) → SaneSlot k s → slotEq inst k ce s s = .ok true
  | 0, _, p, h => by
    have h' : Sane (α := α) (β := β) (n := n) p := h
    exact param_refl_partial (α := α) (β := β) (n := n) p h'.rtol h'.atol h'.ready h'.strict
  | k + 1, _, Sum.inl p, h => by
    have h' : Sane (α := α) (β := β) (n := n) p := h
    exact param_refl_partial (α := α) (β := β) (n := n) p h'.rtol h'.atol h'.ready h'.strict
  | k + 1, ce, Sum.inr o, h => by
    show objEq inst (slotEq inst k) ce [filename] o o = .ok true
    exact obj_refl ce _ hi (fun p hp c => slot_refl inst hi k c p.slot (h p hp))

/-- An object compares equal to a copy of itself, whatever objects are inside and whatever is allowed to differ. -/
theorem object_refl_partial (inst : Nat → Nat → Bool) (hi : ∀ c, inst c c = true) (k : Nat) (ce : Bool)
    (allowed : List Str) (o : Object (Slot α β n k)) (h : ∀ a ∈ o.attrs, SaneSlot k a.slot) :
    objEq inst (slotEq inst k) ce allowed o o = .ok true :=
  obj_refl ce allowed hi (fun p hp c => slot_refl inst hi k c p.slot (h p hp))

/-- A parameter that does not hold an object. -/
def ofParam (p : Param α β n) : (k : Nat) → Slot α β n k
  | 0 => p
  | _ + 1 => Sum.inl p

theorem slotEq_ofParam (inst : Nat → Nat → Bool) (k : Nat) (ce : Bool) (p q : Param α β n) :
    slotEq inst k ce (ofParam p k) (ofParam q k) = paramEq p q := by
  cases k <;> rfl

/-- Two objects that compare equal have arrays of the same shape in every parameter that has to agree, and all
elements agree within tolerances. -/
theorem object_arrays (inst : Nat → Nat → Bool) (m : Nat) (ce : Bool) (allowed : List Str)
    (a b : Object (Slot α β n m)) (h : objEq inst (slotEq inst m) ce allowed a b = .ok true)
    (x : Str) (hx : Looked a ce x) (hn : ¬ Named allowed x) (p q : Param α β n) (hp : a.get x = some (ofParam p m))
    (hq : b.get x = some (ofParam q m)) (hpq : Alike p q) {k : Nat} {sh : List Nat} {d : List (Num β)}
    (hv : p.value = .arr k sh d) (hd : d ≠ []) (hf : Filled sh d)
    (hg : ∀ k' sh' d', q.value = .arr k' sh' d' → Filled sh' d') (hqn : q.value ≠ .none) :
    ∃ k' d', q.value = .arr k' sh d' ∧ AllNear p.rtol p.atol d d' := by
  obtain ⟨_, _, _, h4, _⟩ := (object_eq_iff _ _ _ _ _ _).mp h
  obtain ⟨s, t, hs, ht, he⟩ := h4 x hx hn
  rw [hp] at hs
  rw [hq] at ht
  obtain rfl := Option.some.inj hs
  obtain rfl := Option.some.inj ht
  rw [slotEq_ofParam] at he
  exact (array_eq_iff hpq hv hd hf hg hqn).mp he

/-! ## Checks -/

/-- The expected shape, axis by axis. -/
theorem expectedShape_iff (dims : Str → Option Nat) (l : List (Nat ⊕ Str)) (sh : List Nat) :
    expectedShape dims l = .ok sh ↔ List.Forall₂ (Dim dims) l sh := by
  induction l generalizing sh with
  | nil => cases sh <;> simp [expectedShape]
  | cons f l ih =>
    cases f with
    | inl j =>
      simp only [expectedShape]
      cases h : expectedShape dims l with
      | error e =>
        rw [h] at ih
        cases sh with
        | nil => simp
        | cons k sh => simp [← ih sh]
      | ok s =>
        rw [h] at ih
        cases sh with
        | nil => simp
        | cons k sh => simp [← ih sh, Dim]
    | inr p =>
      simp only [expectedShape]
      cases hd : dims p with
      | none =>
        cases sh with
        | nil => simp
        | cons k sh => simp [Dim, hd]
      | some j =>
        cases h : expectedShape dims l with
        | error e =>
          rw [h] at ih
          cases sh with
          | nil => simp
          | cons k sh => simp [← ih sh]
        | ok s =>
          rw [h] at ih
          cases sh with
          | nil => simp
          | cons k sh => simp [← ih sh, Dim, hd]

omit [AddCommGroup β] [DecidableEq β] in
theorem hasShape_iff {v : Val β n} (hv : v.isNone = false) (sh : List Nat) : v.shape = sh ↔ HasShape v sh := by
  constructor
  · rintro rfl
    cases v with
    | none => simp [Val.isNone] at hv
    | arr k sh d => exact .arr k sh d
    | num k x => exact .num k x
    | list l => exact .list l
    | str s => exact .str s
    | strs a s l => exact .strs a s l
    | dict d => exact .dict d
    | obj c i => exact .obj c i
  · intro h
    cases h <;> rfl

theorem typed_iff {v : Val β n} (hv : v.isNone = false) (lk : Nat) (expected : List Kind) :
    (∃ ks, checkKinds lk v = .ok ks ∧ ks.any (fun k => decide (k ∉ expected)) = false) ↔ Typed lk expected v := by
  cases v with
  | none => simp [Val.isNone] at hv
  | arr k sh d =>
    cases sh with
    | nil =>
      simp only [checkKinds, Except.ok.injEq, exists_eq_left']
      simp only [List.any_cons, List.any_nil, Bool.or_false, decide_eq_false_iff_not, not_not]
      exact ⟨fun h => .zero k d h, fun h => by
        cases h with
        | arr _ _ _ _ h _ => exact absurd rfl h
        | zero _ _ h => exact h⟩
    | cons j sh =>
      simp only [checkKinds]
      by_cases hd : d = []
      · rw [if_pos hd]
        constructor
        · rintro ⟨ks, h, _⟩; simp at h
        · intro h
          cases h with
          | arr _ _ _ _ _ h => exact absurd hd h
      · rw [if_neg hd]
        simp only [Except.ok.injEq, exists_eq_left']
        simp only [List.any_cons, List.any_nil, Bool.or_false, decide_eq_false_iff_not, not_not]
        exact ⟨fun h => .arr k _ d h (by simp) hd, fun h => by cases h; assumption⟩
  | list l =>
    simp only [checkKinds, Except.ok.injEq, exists_eq_left']
    cases l with
    | nil => exact ⟨fun _ => .empty, fun _ => rfl⟩
    | cons x l =>
      constructor
      · intro h
        refine .list _ ?_
        by_contra hn
        simp [hn] at h
      · intro h
        cases h with
        | list _ h => simp [h]
  | strs a s l =>
    have : (∃ ks, checkKinds lk (.strs a s l : Val β n) = .ok ks ∧ ks.any (fun k => decide (k ∉ expected)) = false) ↔
        Kind.str ∈ expected := by
      cases a <;> simp only [checkKinds, Except.ok.injEq, exists_eq_left']
      · constructor
        · intro h
          by_contra hn
          simp [hn] at h
        · intro h; simp [h]
      · simp
    rw [this]
    exact ⟨fun h => .strs a s l h, fun h => by cases h; assumption⟩
  | num k x =>
    simp only [checkKinds, Except.ok.injEq, exists_eq_left', Val.kind]
    simp only [List.any_cons, List.any_nil, Bool.or_false, decide_eq_false_iff_not, not_not]
    exact ⟨fun h => .num k x h, fun h => by cases h; assumption⟩
  | str s =>
    simp only [checkKinds, Except.ok.injEq, exists_eq_left', Val.kind]
    simp only [List.any_cons, List.any_nil, Bool.or_false, decide_eq_false_iff_not, not_not]
    exact ⟨fun h => .str s h, fun h => by cases h; assumption⟩
  | dict d =>
    simp only [checkKinds, Except.ok.injEq, exists_eq_left', Val.kind]
    simp only [List.any_cons, List.any_nil, Bool.or_false, decide_eq_false_iff_not, not_not]
    exact ⟨fun h => .dict d h, fun h => by cases h; assumption⟩
  | obj c i =>
    simp only [checkKinds, Except.ok.injEq, exists_eq_left', Val.kind]
    simp only [List.any_cons, List.any_nil, Bool.or_false, decide_eq_false_iff_not, not_not]
    exact ⟨fun h => .obj c i h, fun h => by cases h; assumption⟩

/-- The mean of the magnitudes of finite numbers lies in a range. -/
def MeanIn (lo hi : α) (l : List (Num β)) : Prop :=
  ∃ xs : List β, l = xs.map Num.fin ∧ xs ≠ [] ∧
    lo * (xs.length : α) ≤ (xs.map (fun x => (mag x : α))).sum ∧
    (xs.map (fun x => (mag x : α))).sum ≤ hi * (xs.length : α)

theorem magSum_some {l : List (Num β)} {s : α} :
    magSum l = some s ↔ ∃ xs : List β, l = xs.map Num.fin ∧ s = (xs.map (fun x => (mag x : α))).sum := by
  induction l generalizing s with
  | nil =>
    simp only [magSum, Option.some.injEq]
    constructor
    · rintro rfl; exact ⟨[], rfl, rfl⟩
    · rintro ⟨xs, h, rfl⟩
      cases xs with
      | nil => rfl
      | cons => simp at h
  | cons a l ih =>
    cases a with
    | nan =>
      simp only [magSum, reduceCtorEq, false_iff]
      rintro ⟨xs, h, _⟩
      cases xs <;> simp at h
    | inf k =>
      simp only [magSum, reduceCtorEq, false_iff]
      rintro ⟨xs, h, _⟩
      cases xs <;> simp at h
    | fin x =>
      simp only [magSum, Option.map_eq_some_iff]
      constructor
      · rintro ⟨r, hr, rfl⟩
        obtain ⟨xs, rfl, rfl⟩ := ih.mp hr
        exact ⟨x :: xs, rfl, by simp⟩
      · rintro ⟨xs, h, rfl⟩
        cases xs with
        | nil => simp at h
        | cons y xs =>
          simp only [List.map_cons, List.cons.injEq, Num.fin.injEq] at h
          obtain ⟨rfl, rfl⟩ := h
          exact ⟨_, ih.mpr ⟨xs, rfl, rfl⟩, by simp⟩

theorem inRange_iff (lo hi : α) (l : List (Num β)) : inRange lo hi l = true ↔ MeanIn lo hi l := by
  unfold inRange
  cases h : magSum (α := α) l with
  | none =>
    simp only [Bool.false_eq_true, false_iff]
    rintro ⟨xs, hl, _⟩
    rw [magSum_some.mpr ⟨xs, hl, rfl⟩] at h
    simp at h
  | some s =>
    obtain ⟨xs, hl, rfl⟩ := magSum_some.mp h
    simp only
    by_cases hne : l = []
    · rw [if_pos hne]
      simp only [Bool.false_eq_true, false_iff]
      rintro ⟨ys, hy, hyn, _⟩
      rw [hne] at hy
      cases ys with
      | nil => exact hyn rfl
      | cons => simp at hy
    · rw [if_neg hne]
      have hpos : (0 : α) < (l.length : α) := by
        have : 0 < l.length := List.length_pos_iff.mpr hne
        exact_mod_cast this
      have hlen : xs.length = l.length := by rw [hl]; simp
      simp only [Bool.and_eq_true, decide_eq_true_eq, le_div_iff₀ hpos, div_le_iff₀ hpos]
      constructor
      · rintro ⟨h1, h2⟩
        refine ⟨xs, hl, ?_, ?_, ?_⟩
        · rintro rfl; exact hne (by simpa using hl)
        · rw [hlen]; exact h1
        · rw [hlen]; exact h2
      · rintro ⟨ys, hy, _, h1, h2⟩
        have : ys = xs := by
          rw [hl] at hy
          exact (List.map_injective_iff.mpr (fun a b h => by injection h) hy).symm
        subst this
        rw [hlen] at h1 h2
        exact ⟨h1, h2⟩

/-- What is accepted as a value: only the listed numbers; only the listed strings, up to case; numbers whose mean
magnitude lies in the range. -/
def Accepted (c : Checked α β n) : Prop :=
  (∀ vs, c.acceptNums = some vs → ∀ x ∈ c.value.nums, x ∈ vs) ∧
  (∀ vs, c.acceptNums = none → c.acceptStrs = some vs →
    ∀ s ∈ c.value.texts, ∃ t ∈ vs, t.map Char.toLower = s.map Char.toLower) ∧
  (∀ lo hi, c.acceptNums = none → c.acceptStrs = none → c.acceptRange = some (lo, hi) → MeanIn lo hi c.value.nums)

theorem acceptable_iff (c : Checked α β n) : acceptable c = true ↔ Accepted c := by
  unfold acceptable Accepted
  cases h1 : c.acceptNums with
  | some vs => simp
  | none =>
    cases h2 : c.acceptStrs with
    | some vs => simp
    | none =>
      cases h3 : c.acceptRange with
      | none => simp
      | some r =>
        obtain ⟨lo, hi⟩ := r
        simp only [inRange_iff]
        constructor
        · intro h
          refine ⟨by simp, by simp, ?_⟩
          rintro lo' hi' _ _ h'
          cases h'
          exact h
        · intro h
          exact h.2.2 lo hi trivial trivial rfl

/-- A parameter is as it should be: named after its attribute, set if it is required, of the expected shape and type,
with accepted values. -/
structure Fine (dims : Str → Option Nat) (lk : Nat) (accept ignoreReq : Bool) (c : Checked α β n) : Prop where
  named : c.attr = '_' :: c.name
  isSet : c.value = .none → c.required = true → ignoreReq = true
  text : c.value ≠ .none → c.form = .str → ∃ s, c.value = .str s
  shape : c.value ≠ .none → ∀ l, c.form = .dims l → ∃ sh, List.Forall₂ (Dim dims) l sh ∧ HasShape c.value sh
  typed : c.value ≠ .none → ∀ l, c.form = .dims l → Typed lk c.expected c.value
  accepted : c.value ≠ .none → accept = true → Accepted c

theorem isNone_iff (v : Val β n) : v.isNone = true ↔ v = .none := by
  cases v <;> simp [Val.isNone]

theorem kind_str (v : Val β n) : v.kind = .str ↔ ∃ s, v = .str s := by
  cases v <;> simp [Val.kind]
  split <;> simp

theorem checkOne_iff (dims : Str → Option Nat) (lk : Nat) (accept ignoreReq : Bool) (c : Checked α β n) :
    checkOne dims lk accept ignoreReq c = .ok () ↔ Fine dims lk accept ignoreReq c := by
  unfold checkOne
  by_cases h1 : c.attr = '_' :: c.name
  swap
  · rw [if_pos h1]
    exact ⟨fun h => by simp at h, fun h => absurd h.named h1⟩
  rw [if_neg (not_not.mpr h1)]
  by_cases h2 : c.value.isNone = true
  · rw [if_pos h2]
    have h2' := (isNone_iff _).mp h2
    by_cases h3 : ignoreReq = true
    · rw [if_pos h3]
      exact ⟨fun _ => ⟨h1, fun _ _ => h3, fun h => absurd h2' h, fun h => absurd h2' h, fun h => absurd h2' h,
        fun h => absurd h2' h⟩, fun _ => rfl⟩
    · rw [if_neg h3]
      by_cases h4 : c.required = true
      · rw [if_pos h4]
        exact ⟨fun h => by simp at h, fun h => absurd (h.isSet h2' h4) h3⟩
      · rw [if_neg h4]
        exact ⟨fun _ => ⟨h1, fun _ h => absurd h h4, fun h => absurd h2' h, fun h => absurd h2' h,
          fun h => absurd h2' h, fun h => absurd h2' h⟩, fun _ => rfl⟩
  rw [if_neg h2]
  have hv : c.value ≠ .none := fun h => h2 ((isNone_iff _).mpr h)
  have hvf : c.value.isNone = false := by simpa using h2
  have hacc : ∀ X : Prop, ((if accept = true ∧ acceptable c = false then (.error .accept : Except Err Unit) else .ok ())
      = .ok ()) ↔ (accept = true → Accepted c) := by
    intro _
    rw [← acceptable_iff]
    cases accept <;> cases acceptable c <;> simp
  cases hform : c.form with
  | str =>
    simp only
    by_cases hk : c.value.kind = .str
    · rw [if_neg (not_not.mpr hk), hacc True]
      constructor
      · intro h
        exact ⟨h1, fun h => absurd h hv, fun _ _ => (kind_str _).mp hk, fun _ l hl => (by rw [hform] at hl; cases hl),
          fun _ l hl => (by rw [hform] at hl; cases hl), fun _ => h⟩
      · intro h
        exact h.accepted hv
    · rw [if_pos hk]
      exact ⟨fun h => by simp at h, fun h => absurd ((kind_str _).mpr (h.text hv hform)) hk⟩
  | dims l =>
    simp only
    cases he : expectedShape dims l with
    | error e =>
      simp only [reduceCtorEq, false_iff]
      intro h
      obtain ⟨sh, hsh, _⟩ := h.shape hv l hform
      rw [(expectedShape_iff dims l sh).mpr hsh] at he
      simp at he
    | ok sh =>
      have hsh := (expectedShape_iff dims l sh).mp he
      simp only
      by_cases hs : c.value.shape = sh
      · rw [if_neg (not_not.mpr hs)]
        cases hk : checkKinds lk c.value with
        | error e =>
          simp only [reduceCtorEq, false_iff]
          intro h
          obtain ⟨ks, h3, _⟩ := (typed_iff hvf lk c.expected).mpr (h.typed hv l hform)
          rw [h3] at hk
          simp at hk
        | ok ks =>
          simp only
          by_cases ha : ks.any (fun k => decide (k ∉ c.expected)) = true
          · rw [if_pos ha]
            simp only [reduceCtorEq, false_iff]
            intro h
            obtain ⟨ks', h3, h4⟩ := (typed_iff hvf lk c.expected).mpr (h.typed hv l hform)
            rw [hk] at h3
            cases h3
            rw [h4] at ha
            simp at ha
          · rw [if_neg ha, hacc True]
            constructor
            · intro h
              refine ⟨h1, fun h => absurd h hv, fun _ h' => (by rw [hform] at h'; cases h'), fun _ l' hl => ?_,
                fun _ l' hl => ?_, fun _ => h⟩
              · rw [hform] at hl
                cases hl
                exact ⟨sh, hsh, (hasShape_iff hvf sh).mp hs⟩
              · exact (typed_iff hvf lk c.expected).mp ⟨ks, hk, by simpa using ha⟩
            · intro h
              exact h.accepted hv
      · rw [if_pos hs]
        simp only [reduceCtorEq, false_iff]
        intro h
        obtain ⟨sh', hsh', hh⟩ := h.shape hv l hform
        have := (expectedShape_iff dims l sh').mpr hsh'
        rw [he] at this
        cases this
        exact hs ((hasShape_iff hvf sh).mpr hh)

/-- A check passes exactly if every parameter looked at is as it should be. -/
theorem check_iff (dims : Str → Option Nat) (lk : Nat) (ce accept ignoreReq : Bool) (l : List (Checked α β n)) :
    check dims lk ce accept ignoreReq l = .ok () ↔
      ∀ c ∈ l, (c.required = true ∨ ce = true) → Fine dims lk accept ignoreReq c := by
  induction l with
  | nil => simp [check]
  | cons c l ih =>
    rw [List.forall_mem_cons, ← ih, ← checkOne_iff, check]
    by_cases h : c.required = true ∨ ce = true
    · rw [if_pos h]
      cases h1 : checkOne dims lk accept ignoreReq c with
      | error e => simp [h]
      | ok u => cases u; simp
    · rw [if_neg h]
      simp [h]

end
end Verif.Eq
