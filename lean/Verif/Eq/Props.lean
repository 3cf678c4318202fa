import Mathlib.Tactic.Ring
import Mathlib.Tactic.Linarith
import Verif.Eq.Spec

/-!
# Proofs about comparing parameters
-/

namespace Verif.Eq

open Verif.Pol (Str)

set_option linter.unusedSectionVars false

/-- A symmetric relation between any two elements. -/
theorem pw_forall {A : Type} {R : A → A → Prop} {l : List A} (h : l.Pairwise R) (hs : ∀ x y, R x y → R y x) {a b : A}
    (ha : a ∈ l) (hb : b ∈ l) (hne : a ≠ b) : R a b :=
  haveI : Std.Symm R := ⟨hs⟩
  h.forall ha hb hne

section
variable {α β : Type} [Field α] [LinearOrder α] [IsStrictOrderedRing α] [AddCommGroup β] [Sized α β]

/-! ## Numbers -/

theorem mag_nonneg (x : β) : (0 : α) ≤ mag x := by
  have h := Sized.mag_add (α := α) x (-x)
  rw [add_neg_cancel, Sized.mag_zero, Sized.mag_neg] at h
  linarith

theorem mag_sub_comm (x y : β) : (mag (x - y) : α) = mag (y - x) := by
  rw [← Sized.mag_neg, neg_sub]

theorem close_iff (rtol atol : α) (x y : Num β) : close rtol atol true x y = true ↔ Near rtol atol x y := by
  constructor
  · intro h
    cases x <;> cases y <;> simp [close] at h
    · exact .nan
    · subst h; exact .inf _
    · exact .fin _ _ h
  · intro h
    cases h with
    | nan => rfl
    | inf k => simp [close]
    | fin x y h => simpa [close] using h

theorem close_false_iff (rtol atol : α) (x y : Num β) :
    close rtol atol false x y = true ↔ x ≠ .nan ∧ Near rtol atol x y := by
  rw [← close_iff]
  cases x <;> cases y <;> simp [close]

theorem near_refl {rtol atol : α} (hr : 0 ≤ rtol) (ha : 0 ≤ atol) (x : Num β) : Near rtol atol x x := by
  cases x with
  | nan => exact .nan
  | inf k => exact .inf k
  | fin x =>
    refine .fin _ _ ?_
    rw [sub_self, Sized.mag_zero]
    have := mag_nonneg (α := α) x
    positivity

theorem near_nan {rtol atol : α} {x y : Num β} (h : Near rtol atol x y) : x = .nan ↔ y = .nan := by
  cases h <;> simp

theorem allClose_iff {rtol atol : α} {d e : List (Num β)} (hl : d.length = e.length) :
    allClose rtol atol true d e = true ↔ AllNear rtol atol d e := by
  simp only [allClose, List.all_eq_true, close_iff, AllNear, hl, true_and]
  constructor
  · intro h i x y hx hy
    exact h (x, y) (List.mem_of_getElem? (List.getElem?_zip_eq_some.mpr ⟨hx, hy⟩))
  · intro h p hp
    obtain ⟨i, hi⟩ := List.getElem?_of_mem hp
    obtain ⟨h1, h2⟩ := List.getElem?_zip_eq_some.mp hi
    exact h i _ _ h1 h2

theorem allClose_false_iff {rtol atol : α} {d e : List (Num β)} (hl : d.length = e.length) :
    allClose rtol atol false d e = true ↔ (∀ x ∈ d, x ≠ .nan) ∧ AllNear rtol atol d e := by
  simp only [allClose, List.all_eq_true, close_false_iff, AllNear, hl, true_and]
  constructor
  · intro h
    have key : ∀ (i : Nat) (x y : Num β), d[i]? = some x → e[i]? = some y → x ≠ .nan ∧ Near rtol atol x y :=
      fun i x y hx hy => h (x, y) (List.mem_of_getElem? (List.getElem?_zip_eq_some.mpr ⟨hx, hy⟩))
    refine ⟨fun x hx => ?_, fun i x y hx hy => (key i x y hx hy).2⟩
    obtain ⟨i, hi⟩ := List.getElem?_of_mem hx
    have hlt : i < e.length := by
      rw [← hl]
      exact (List.getElem?_eq_some_iff.mp hi).1
    exact (key i x _ hi (List.getElem?_eq_getElem hlt)).1
  · rintro ⟨h1, h2⟩ p hp
    obtain ⟨i, hi⟩ := List.getElem?_of_mem hp
    obtain ⟨hx, hy⟩ := List.getElem?_zip_eq_some.mp hi
    exact ⟨h1 _ (List.mem_of_getElem? hx), h2 i _ _ hx hy⟩

theorem allNear_refl {rtol atol : α} (hr : 0 ≤ rtol) (ha : 0 ≤ atol) (d : List (Num β)) : AllNear rtol atol d d := by
  refine ⟨rfl, fun i x y hx hy => ?_⟩
  rw [hx] at hy
  obtain rfl := Option.some.inj hy
  exact near_refl hr ha x

theorem close_symm (atol : α) (b : Bool) (x y : Num β) : close 0 atol b x y = close 0 atol b y x := by
  cases x <;> cases y <;> simp [close, eq_comm]
  rw [mag_sub_comm]

theorem allClose_symm (atol : α) (b : Bool) (d e : List (Num β)) : allClose 0 atol b d e = allClose 0 atol b e d := by
  induction d generalizing e with
  | nil => cases e <;> rfl
  | cons x d ih =>
    cases e with
    | nil => rfl
    | cons y e =>
      have := ih e
      simp only [allClose] at this ⊢
      simp only [List.zip_cons_cons, List.all_cons, this, close_symm atol b x y]

/-! ## Strings -/

theorem dropWhile_letters (s : Str) : letters (s.dropWhile Char.isWhitespace) = letters s := by
  induction s with
  | nil => rfl
  | cons c s ih =>
    by_cases h : c.isWhitespace = true
    · rw [List.dropWhile_cons_of_pos h, ih]
      simp [letters, h]
    · rw [List.dropWhile_cons_of_neg h]

theorem letters_reverse (s : Str) : letters s.reverse = (letters s).reverse := List.filter_reverse ..

theorem strip_letters (s : Str) : letters (strip s) = letters s := by
  rw [strip, letters_reverse, dropWhile_letters, letters_reverse, dropWhile_letters, List.reverse_reverse]

theorem squash_letters (s : Str) : letters (squash s) = letters s := by
  rw [letters, squash, List.filter_filter, List.filter_filter, letters]
  apply List.filter_congr
  intro c _
  by_cases h : c.isWhitespace = true
  · simp [h]
  · have h1 : c ≠ ' ' := by rintro rfl; exact h (by decide)
    have h2 : c ≠ '\n' := by rintro rfl; exact h (by decide)
    rw [bne_iff_ne.mpr h1, bne_iff_ne.mpr h2, Bool.and_true, Bool.and_true]

theorem squash_blanks {s : Str} (h : BlanksOnly s) : squash s = letters s := by
  rw [letters, squash, List.filter_filter]
  apply List.filter_congr
  intro c hc
  by_cases hw : c.isWhitespace = true
  · rcases h c hc hw with rfl | rfl <;> simp
  · have h1 : c ≠ ' ' := by rintro rfl; exact hw (by decide)
    have h2 : c ≠ '\n' := by rintro rfl; exact hw (by decide)
    simp [h1, h2, hw]

/-- Strings that compare equal are the same apart from whitespace. -/
theorem strEq_letters {s t : Str} (h : strEq s t = true) : letters s = letters t := by
  simp only [strEq, Bool.or_eq_true, decide_eq_true_eq] at h
  rcases h with h | h
  · rw [← strip_letters s, ← strip_letters t, h]
  · rw [← squash_letters s, ← squash_letters t, h]

/-- If blanks and line breaks are the only whitespace, strings compare equal exactly if the rest is the same. -/
theorem strEq_iff {s t : Str} (hs : BlanksOnly s) (ht : BlanksOnly t) : strEq s t = true ↔ letters s = letters t := by
  refine ⟨strEq_letters, fun h => ?_⟩
  simp only [strEq, Bool.or_eq_true, decide_eq_true_eq]
  right
  rw [squash_blanks hs, squash_blanks ht, h]

theorem strEq_refl (s : Str) : strEq s s = true := by simp [strEq]

theorem strEq_symm (s t : Str) : strEq s t = strEq t s := by simp [strEq, eq_comm]

variable [DecidableEq β]

/-! ## Dictionaries -/

theorem allM_true {l : List (Except Err Bool)} : allM l = .ok true ↔ ∀ x ∈ l, x = .ok true := by
  induction l with
  | nil => simp [allM]
  | cons a l ih =>
    cases a with
    | error e => simp [allM]
    | ok b => cases b <;> simp [allM, ih]

theorem sameKey_iff (a b : Key) : SameKey a b ↔ a.lower = b.lower := by
  cases a <;> cases b <;> simp [SameKey, Key.lower]

theorem lookLow_mem {V : Type} {d : List (Key × V)} {k : Key} {v : V} (h : lookLow d k = some v) :
    ∃ a ∈ d, a.1.lower = k ∧ a.2 = v := by
  simp only [lookLow, Option.map_eq_some_iff] at h
  obtain ⟨a, ha, hv⟩ := h
  have := List.mem_of_getLast? ha
  rw [List.mem_filter, decide_eq_true_eq] at this
  exact ⟨a, this.1, this.2, hv⟩

theorem lookLow_some {V : Type} {d : List (Key × V)} {k : Key} (h : k ∈ lowKeys d) : ∃ v, lookLow d k = some v := by
  simp only [lowKeys, List.mem_map] at h
  obtain ⟨a, ha, hk⟩ := h
  have hne : d.filter (fun e => decide (e.1.lower = k)) ≠ [] := by
    intro h
    have := List.filter_eq_nil_iff.mp h a ha
    simp [hk] at this
  refine ⟨((d.filter (fun e => decide (e.1.lower = k))).getLast hne).2, ?_⟩
  simp only [lookLow, List.getLast?_eq_some_getLast hne, Option.map_some]

theorem lookLow_own {V : Type} {d : List (Key × V)} (hd : d.Pairwise (fun a b => ¬ SameKey a.1 b.1)) {a : Key × V}
    (ha : a ∈ d) : lookLow d a.1.lower = some a.2 := by
  obtain ⟨v, hv⟩ := lookLow_some (d := d) (k := a.1.lower) (by simp only [lowKeys, List.mem_map]; exact ⟨a, ha, rfl⟩)
  obtain ⟨b, hb, hk, hbv⟩ := lookLow_mem hv
  have : b = a := by
    by_contra hne
    have := pw_forall hd (fun x y h => by rw [sameKey_iff] at h ⊢; exact fun h' => h h'.symm) hb ha hne
    exact this ((sameKey_iff _ _).mpr hk)
  rw [hv, ← hbv, this]

theorem look_own {V : Type} {d : List (Key × V)} (hd : d.Pairwise (fun a b => a.1 ≠ b.1)) {a : Key × V}
    (ha : a ∈ d) : look d a.1 = some a.2 := by
  simp only [look]
  cases h : d.find? (fun e => decide (e.1 = a.1)) with
  | none =>
    have := List.find?_eq_none.mp h a ha
    simp at this
  | some b =>
    have h1 := List.find?_some h
    have h2 := List.mem_of_find?_eq_some h
    simp only [decide_eq_true_eq] at h1
    have : b = a := by
      by_contra hne
      exact pw_forall hd (fun x y h => fun h' => h h'.symm) h2 ha hne h1
    simp [this]

theorem look_mem {V : Type} {d : List (Key × V)} {k : Key} {v : V} (h : look d k = some v) : (k, v) ∈ d := by
  simp only [look, Option.map_eq_some_iff] at h
  obtain ⟨a, ha, rfl⟩ := h
  have h1 := List.find?_some ha
  simp only [decide_eq_true_eq] at h1
  subst h1
  exact List.mem_of_find?_eq_some ha

/-- A dictionary compares equal to itself if all its values do. -/
theorem dictEqWith_refl {V : Type} {veq : V → V → Bool} {cmp : V → V → Except Err Bool} {d : List (Key × V)}
    (h : ∀ a ∈ d, cmp a.2 a.2 = .ok true) : dictEqWith veq cmp d d = .ok true := by
  rw [dictEqWith]
  split
  · rfl
  · rw [if_neg (by simp)]
    rw [allM_true]
    intro x hx
    simp only [List.mem_map] at hx
    obtain ⟨k, hk, rfl⟩ := hx
    obtain ⟨v, hv⟩ := lookLow_some hk
    obtain ⟨a, ha, _, rfl⟩ := lookLow_mem hv
    simp only [hv]
    exact h a ha

theorem dictPyEq_refl {V : Type} {veq : V → V → Bool} {d : List (Key × V)} (hd : d.Pairwise (fun a b => a.1 ≠ b.1))
    (h : ∀ a ∈ d, veq a.2 a.2 = true) : dictPyEq veq d d = true := by
  simp only [dictPyEq, decide_true, Bool.true_and, List.all_eq_true]
  intro a ha
  simp only [look_own hd ha]
  exact h a ha

/-- Every one of two dictionaries that are found equal by a comparison with case-distinct keys has the other's keys, with
equal values. -/
theorem dictEqWith_sound {V : Type} {veq : V → V → Bool} {cmp : V → V → Except Err Bool} {agree : V → V → Prop}
    {d e : List (Key × V)} (hd : d.Pairwise (fun a b => ¬ SameKey a.1 b.1))
    (he : e.Pairwise (fun a b => ¬ SameKey a.1 b.1))
    (h1 : ∀ a ∈ d, ∀ b ∈ e, veq a.2 b.2 = true → agree a.2 b.2)
    (h2 : ∀ a ∈ d, ∀ b ∈ e, cmp a.2 b.2 = .ok true → agree a.2 b.2)
    (h : dictEqWith veq cmp d e = .ok true) : DictAgree agree d e := by
  rw [dictEqWith] at h
  split at h
  · rename_i hp
    simp only [dictPyEq, Bool.and_eq_true, decide_eq_true_eq, List.all_eq_true] at hp
    obtain ⟨hl, hp⟩ := hp
    have hfor : ∀ a ∈ d, ∃ b ∈ e, b.1 = a.1 ∧ agree a.2 b.2 := by
      intro a ha
      have := hp a ha
      cases hb : look e a.1 with
      | none => simp [hb] at this
      | some w =>
        simp only [hb] at this
        exact ⟨(a.1, w), look_mem hb, rfl, h1 a ha (a.1, w) (look_mem hb) this⟩
    refine ⟨fun a ha => ?_, ?_⟩
    · obtain ⟨b, hb, hk, hag⟩ := hfor a ha
      exact ⟨b, hb, (sameKey_iff _ _).mpr (by rw [hk]), hag⟩
    · have hnd : (d.map Prod.fst).Nodup := by
        rw [List.Nodup, List.pairwise_map]
        exact hd.imp (fun {a b} hk heq => hk ((sameKey_iff _ _).mpr (by rw [heq])))
      have hne : (e.map Prod.fst).Nodup := by
        rw [List.Nodup, List.pairwise_map]
        exact he.imp (fun {a b} hk heq => hk ((sameKey_iff _ _).mpr (by rw [heq])))
      have hsub : d.map Prod.fst ⊆ e.map Prod.fst := by
        intro k hk
        obtain ⟨a, ha, rfl⟩ := List.mem_map.mp hk
        obtain ⟨b, hb, hk, _⟩ := hfor a ha
        exact List.mem_map.mpr ⟨b, hb, hk⟩
      have hperm := (List.subperm_of_subset hnd hsub).perm_of_length_le (by simp [hl])
      intro b hb
      obtain ⟨a, ha, hab⟩ := List.mem_map.mp (hperm.mem_iff.mpr (List.mem_map.mpr ⟨b, hb, rfl⟩))
      obtain ⟨b', hb', hk', hag⟩ := hfor a ha
      have : b' = b := by
        by_contra hn
        exact pw_forall he (fun x y h => by rw [sameKey_iff] at h ⊢; exact fun h' => h h'.symm) hb' hb hn
          ((sameKey_iff _ _).mpr (by rw [hk', hab]))
      subst this
      exact ⟨a, ha, (sameKey_iff _ _).mpr (by rw [hk']), hag⟩
  · split at h
    · simp at h
    · rename_i _ hk
      rw [not_not] at hk
      rw [allM_true] at h
      have hcmp : ∀ a ∈ d, ∀ b ∈ e, SameKey a.1 b.1 → agree a.2 b.2 := by
        intro a ha b hb hab
        have := h _ (List.mem_map.mpr ⟨a.1.lower, List.mem_map.mpr ⟨a, ha, rfl⟩, rfl⟩)
        rw [lookLow_own hd ha, (sameKey_iff _ _).mp hab, lookLow_own he hb] at this
        exact h2 a ha b hb this
      constructor
      · intro a ha
        obtain ⟨b, hb, hbk⟩ := List.mem_map.mp (hk.1 _ (List.mem_map.mpr ⟨a, ha, rfl⟩))
        have hab := (sameKey_iff a.1 b.1).mpr hbk.symm
        exact ⟨b, hb, hab, hcmp a ha b hb hab⟩
      · intro b hb
        obtain ⟨a, ha, hak⟩ := List.mem_map.mp (hk.2 _ (List.mem_map.mpr ⟨b, hb, rfl⟩))
        have hab := (sameKey_iff a.1 b.1).mpr hak
        exact ⟨a, ha, hab, hcmp a ha b hb hab⟩

theorem numPyEq_eq {x y : Num β} (h : numPyEq x y = true) : x = y ∧ x ≠ .nan := by
  cases x <;> cases y <;> simp [numPyEq] at h ⊢ <;> exact h

theorem numPyEq_refl {x : Num β} (h : x ≠ .nan) : numPyEq x x = true := by
  cases x <;> simp [numPyEq] at h ⊢

theorem zip_all_eq {d e : List (Num β)} (hl : d.length = e.length)
    (h : ∀ p ∈ d.zip e, numPyEq p.1 p.2 = true) : d = e ∧ ∀ x ∈ d, x ≠ .nan := by
  induction d generalizing e with
  | nil => cases e with
    | nil => simp
    | cons y e => simp at hl
  | cons x d ih =>
    cases e with
    | nil => simp at hl
    | cons y e =>
      simp only [List.zip_cons_cons, List.forall_mem_cons] at h
      simp only [List.length_cons, Nat.add_right_cancel_iff] at hl
      obtain ⟨h1, h2⟩ := ih hl h.2
      obtain ⟨h3, h4⟩ := numPyEq_eq h.1
      subst h1 h3
      exact ⟨rfl, by simpa using ⟨h4, h2⟩⟩

theorem leafPyEq_agree {rtol atol : α} (hr : 0 ≤ rtol) (ha : 0 ≤ atol) {a b : Leaf β} (h : leafPyEq a b = true) :
    LeafAgree rtol atol a b := by
  cases a with
  | none => cases b <;> simp [leafPyEq] at h; exact .none
  | num x =>
    cases b <;> simp [leafPyEq] at h
    obtain ⟨rfl, hn⟩ := numPyEq_eq h
    exact .num _ _ hn (near_refl hr ha _)
  | vec a sh d =>
    cases b with
    | vec a' sh' d' =>
      cases a <;> cases a' <;> simp only [leafPyEq, Bool.and_eq_true, decide_eq_true_eq, List.all_eq_true,
        Bool.false_eq_true] at h
      obtain ⟨⟨rfl, hl⟩, h⟩ := h
      obtain ⟨rfl, hn⟩ := zip_all_eq hl h
      exact .vec _ _ _ _ _ hn (allNear_refl hr ha _)
    | _ => cases a <;> simp [leafPyEq] at h
  | str s =>
    cases b <;> simp [leafPyEq] at h
    subst h
    exact .str _
  | strs s l =>
    cases b <;> simp [leafPyEq] at h
    obtain ⟨rfl, rfl⟩ := h
    exact .strs _ _

/-- The data of an array fill its shape. -/
def Leaf.Filled : Leaf β → Prop
  | .vec _ sh d => Verif.Eq.Filled sh d
  | _ => True

theorem leafEq_agree {rtol atol : α} {a b : Leaf β} (hfa : a.Filled) (hfb : b.Filled)
    (h : leafEq rtol atol a b = .ok true) : LeafAgree rtol atol a b := by
  cases a with
  | none => cases b <;> simp [leafEq] at h; exact .none
  | num x =>
    cases b with
    | num y =>
      simp only [leafEq, Except.ok.injEq, close_false_iff] at h
      exact .num _ _ h.1 h.2
    | vec b sh d =>
      simp only [leafEq] at h
      match d, h with
      | [y], h =>
        simp only [List.map_cons, List.map_nil, oneClose, Except.ok.injEq, close_false_iff] at h
        exact .left _ _ _ _ h.1 h.2
    | _ => simp [leafEq] at h
  | vec a sh d =>
    cases b with
    | num y =>
      simp only [leafEq] at h
      match d, h with
      | [x], h =>
        simp only [List.map_cons, List.map_nil, oneClose, Except.ok.injEq, close_false_iff] at h
        exact .right _ _ _ _ h.1 h.2
    | vec b sh' d' =>
      simp only [leafEq] at h
      by_cases hs : sh = sh'
      · subst hs
        have hl : d.length = d'.length := by
          have h1 : d.length = sh.prod := hfa
          have h2 : d'.length = sh.prod := hfb
          rw [h1, h2]
        simp only [ne_eq, not_true_eq_false, if_false, Except.ok.injEq, allClose_false_iff hl] at h
        exact .vec _ _ _ _ _ h.1 h.2
      · simp [hs] at h
    | strs t m => simp only [leafEq] at h; split at h <;> simp at h
    | str t => simp only [leafEq, noneTrue] at h; split at h <;> simp at h
    | none => simp [leafEq] at h
  | str s =>
    cases b with
    | str t =>
      simp only [leafEq, Except.ok.injEq, decide_eq_true_eq] at h
      subst h
      exact .str _
    | vec b sh' d' => simp only [leafEq, noneTrue] at h; split at h <;> simp at h
    | _ => simp [leafEq] at h
  | strs s l =>
    cases b with
    | strs t m => simp only [leafEq] at h; split at h <;> simp at h
    | vec b sh' d' => simp only [leafEq] at h; split at h <;> simp at h
    | _ => simp [leafEq] at h

theorem leafEq_refl {rtol atol : α} (hr : 0 ≤ rtol) (ha : 0 ≤ atol) {a : Leaf β} (h1 : a.NoNan) (h2 : a.NoText) :
    leafEq rtol atol a a = .ok true := by
  cases a with
  | none => rfl
  | num x =>
    simp only [leafEq, Except.ok.injEq, close_false_iff]
    exact ⟨h1, near_refl hr ha x⟩
  | vec a sh d =>
    simp only [leafEq, ne_eq, not_true_eq_false, if_false, Except.ok.injEq, allClose_false_iff rfl]
    exact ⟨h1, allNear_refl hr ha d⟩
  | str s => simp [leafEq]
  | strs s l => exact absurd h2 (by simp [Leaf.NoText])

theorem zip_self {d : List (Num β)} {p : Num β × Num β} (h : p ∈ d.zip d) : p.1 = p.2 ∧ p.1 ∈ d := by
  obtain ⟨i, hi⟩ := List.getElem?_of_mem h
  obtain ⟨h1, h2⟩ := List.getElem?_zip_eq_some.mp hi
  rw [h1] at h2
  exact ⟨Option.some.inj h2, List.mem_of_getElem? h1⟩

theorem leafPyEq_refl {a : Leaf β} (h1 : a.NoNan) (h2 : a.NoArray) : leafPyEq a a = true := by
  cases a with
  | none => rfl
  | num x => exact numPyEq_refl h1
  | vec a sh d =>
    cases a with
    | true => exact absurd h2 (by simp [Leaf.NoArray])
    | false =>
      simp only [leafPyEq, decide_true, Bool.true_and, List.all_eq_true]
      intro p hp
      obtain ⟨h3, h4⟩ := zip_self hp
      rw [← h3]
      exact numPyEq_refl (h1 _ h4)
  | str s => simp [leafPyEq]
  | strs s l => simp [leafPyEq]

theorem levelEq_refl {rtol atol : α} (hr : 0 ≤ rtol) (ha : 0 ≤ atol) : (n : Nat) → (v : Level β n) →
    Every Leaf.NoNan n v → Every Leaf.NoText n v → levelEq rtol atol n v v = .ok true
  | 0, v, h1, h2 => leafEq_refl (β := β) hr ha (a := v) h1 h2
  | n + 1, Sum.inl a, h1, h2 => leafEq_refl (β := β) hr ha (a := a) h1 h2
  | n + 1, Sum.inr d, h1, h2 => by
    show dictEqWith (pyEq n) (levelEq rtol atol n) d d = .ok true
    exact dictEqWith_refl (fun a ham => levelEq_refl hr ha n a.2 (h1 a ham) (h2 a ham))

theorem pyEq_refl : (n : Nat) → (v : Level β n) → Distinct n v → Every Leaf.NoNan n v → Every Leaf.NoArray n v →
    pyEq n v v = true
  | 0, v, _, h1, h2 => leafPyEq_refl (β := β) (a := v) h1 h2
  | n + 1, Sum.inl a, _, h1, h2 => leafPyEq_refl (β := β) (a := a) h1 h2
  | n + 1, Sum.inr d, hd, h1, h2 => by
    show dictPyEq (pyEq n) d d = true
    exact dictPyEq_refl hd.1 (fun a ham => pyEq_refl n a.2 (hd.2 a ham) (h1 a ham) (h2 a ham))

theorem pyEq_agree {rtol atol : α} (hr : 0 ≤ rtol) (ha : 0 ≤ atol) : (n : Nat) → (v w : Level β n) →
    CaseDistinct n v → CaseDistinct n w → pyEq n v w = true → Agree rtol atol n v w
  | 0, v, w, _, _, h => leafPyEq_agree (β := β) hr ha (a := v) (b := w) h
  | n + 1, Sum.inl a, Sum.inl b, _, _, h => leafPyEq_agree (β := β) hr ha (a := a) (b := b) h
  | n + 1, Sum.inl a, Sum.inr e, _, _, h => by simp [pyEq] at h
  | n + 1, Sum.inr d, Sum.inl b, _, _, h => by simp [pyEq] at h
  | n + 1, Sum.inr d, Sum.inr e, hv, hw, h => by
    have h' : dictPyEq (pyEq n) d e = true := h
    show DictAgree (Agree rtol atol n) d e
    refine dictEqWith_sound (veq := pyEq n) (cmp := fun _ _ => .ok false) hv.1 hw.1 ?_ (by simp) ?_
    · intro a ham b hbm hab
      exact pyEq_agree hr ha n a.2 b.2 (hv.2 a ham) (hw.2 b hbm) hab
    · rw [dictEqWith, if_pos h']

theorem levelEq_agree {rtol atol : α} (hr : 0 ≤ rtol) (ha : 0 ≤ atol) : (n : Nat) → (v w : Level β n) →
    CaseDistinct n v → CaseDistinct n w → Every Leaf.Filled n v → Every Leaf.Filled n w →
    levelEq rtol atol n v w = .ok true → Agree rtol atol n v w
  | 0, v, w, _, _, hf, hg, h => leafEq_agree (β := β) (a := v) (b := w) hf hg h
  | n + 1, Sum.inl a, Sum.inl b, _, _, hf, hg, h => leafEq_agree (β := β) (a := a) (b := b) hf hg h
  | n + 1, Sum.inl a, Sum.inr e, _, _, _, _, h => by
    have h' : leafDict (β := β) a = .ok true := h
    cases a with
    | vec a sh d => simp only [leafDict, noneTrue] at h'; split at h' <;> simp at h'
    | _ => simp [leafDict] at h'
  | n + 1, Sum.inr d, Sum.inl b, _, _, _, _, h => by simp [levelEq] at h
  | n + 1, Sum.inr d, Sum.inr e, hv, hw, hf, hg, h => by
    show DictAgree (Agree rtol atol n) d e
    refine dictEqWith_sound (veq := pyEq n) (cmp := levelEq rtol atol n) hv.1 hw.1 ?_ ?_ h
    · intro a ham b hbm hab
      exact pyEq_agree hr ha n a.2 b.2 (hv.2 a ham) (hw.2 b hbm) hab
    · intro a ham b hbm hab
      exact levelEq_agree hr ha n a.2 b.2 (hv.2 a ham) (hw.2 b hbm) (hf a ham) (hg b hbm) hab

/-- Dictionaries that compare equal have the same keys up to case, with values that agree within numpy's default
tolerances, at any depth, if no two keys of one dictionary differ only in case. -/
theorem dict_agree_partial {n : Nat} (d e : Dict β n) (hd : d.Pairwise (fun a b => ¬ SameKey a.1 b.1))
    (he : e.Pairwise (fun a b => ¬ SameKey a.1 b.1)) (hd' : ∀ a ∈ d, CaseDistinct n a.2 ∧ Every Leaf.Filled n a.2)
    (he' : ∀ b ∈ e, CaseDistinct n b.2 ∧ Every Leaf.Filled n b.2)
    (h : dictEq (1 / 100000 : α) (1 / 100000000) n d e = .ok true) :
    DictAgree (Agree (1 / 100000 : α) (1 / 100000000) n) d e := by
  have hr : (0 : α) ≤ 1 / 100000 := by positivity
  have ha : (0 : α) ≤ 1 / 100000000 := by positivity
  refine dictEqWith_sound (veq := pyEq n) (cmp := levelEq (1 / 100000 : α) (1 / 100000000) n) hd he ?_ ?_ h
  · intro a ham b hbm hab
    exact pyEq_agree hr ha n a.2 b.2 (hd' a ham).1 (he' b hbm).1 hab
  · intro a ham b hbm hab
    exact levelEq_agree hr ha n a.2 b.2 (hd' a ham).1 (he' b hbm).1 (hd' a ham).2 (he' b hbm).2 hab

/-! ## Parameters -/

variable {n : Nat}

/-- A parameter compares equal to a copy of itself. -/
theorem param_refl_partial (p : Param α β n) (hr : 0 ≤ p.rtol) (ha : 0 ≤ p.atol) (hv : Ready p.value)
    (hs : p.strict = true → (∃ k sh d, p.value = .arr k sh d) ∨ p.value.kind ∈ p.expected) :
    paramEq p p = .ok true := by
  obtain ⟨cls, v, rtol, atol, strict, expected, ign⟩ := p
  simp only at hr ha hv hs
  have hk : (∀ k sh d, v ≠ .arr k sh d) → ¬ (strict = true ∧ v.kind ∉ expected) := by
    rintro h1 ⟨h2, h3⟩
    rcases hs h2 with ⟨k, sh, d, h⟩ | h
    · exact h1 k sh d h
    · exact h3 h
  cases v with
  | none => cases ign <;> simp [paramEq, Val.isNone]
  | arr k sh d =>
    have hd : d ≠ [] := hv
    cases strict <;> simp [paramEq, Val.isNone, arrEq, hd, (allClose_iff rfl).mpr (allNear_refl hr ha d)]
  | num k x =>
    have := hk (by simp)
    simp [paramEq, Val.isNone, restEq, this, plainEq, flatEq, bcast, (close_iff _ _ _ _).mpr (near_refl hr ha x)]
  | list l =>
    have := hk (by simp)
    have hl : l ≠ [] := hv
    have h1 : flatEq rtol atol (.vec l) (.vec l) = .ok true := by
      simp only [flatEq, bcast, if_true, Except.ok.injEq]
      exact (allClose_iff rfl).mpr (allNear_refl hr ha l)
    simp [paramEq, Val.isNone, restEq, this, plainEq, hl, h1]
  | str s =>
    have := hk (by simp)
    simp [paramEq, Val.isNone, restEq, this, textEq, strEq_refl]
  | strs a s l =>
    have := hk (by simp)
    simp [paramEq, Val.isNone, restEq, this, textEq, stripAll]
  | dict d =>
    have := hk (by simp)
    have hd : dictEq (1 / 100000 : α) (1 / 100000000) n d d = .ok true := by
      obtain ⟨h1, h2, h3, h4⟩ := hv
      rcases h4 with h4 | h4
      · exact dictEqWith_refl (fun a ham => levelEq_refl (by positivity) (by positivity) n a.2 (h3 a ham) (h4 a ham))
      · rw [dictEq, dictEqWith, if_pos]
        exact dictPyEq_refl h1 (fun a ham => pyEq_refl n a.2 (h2 a ham) (h3 a ham) (h4 a ham))
    simpa [paramEq, Val.isNone, restEq, this, plainEq] using hd
  | obj c i =>
    have := hk (by simp)
    simp [paramEq, Val.isNone, restEq, this, plainEq]

/-- Two array parameters compare equal exactly if they have the same shape and all elements agree within tolerances. -/
theorem array_eq_iff {p q : Param α β n} (hpq : Alike p q) {k : Nat} {sh : List Nat} {d : List (Num β)}
    (hp : p.value = .arr k sh d) (hd : d ≠ []) (hf : Filled sh d)
    (hg : ∀ k' sh' d', q.value = .arr k' sh' d' → Filled sh' d') (hq : q.value ≠ .none) :
    paramEq p q = .ok true ↔ ∃ k' d', q.value = .arr k' sh d' ∧ AllNear p.rtol p.atol d d' := by
  have hn : q.value.isNone = false := by
    cases h : q.value <;> simp_all [Val.isNone]
  have hm : p.value.isNone = false := by rw [hp]; rfl
  have hs : ∀ P : Prop, ¬ (p.strict = true ∧ q.strict = false ∧ P) := fun P h => by
    rw [hpq.strict, h.2.1] at h; exact absurd h.1 (by simp)
  have hs' : ∀ P : Prop, ¬ (p.strict = false ∧ q.strict = true ∧ P) := fun P h => by
    rw [hpq.strict, h.2.1] at h; exact absurd h.1 (by simp)
  rw [paramEq, if_neg (by simp [hpq.cls]), if_neg (by simp [hn, hm]), if_neg (by simp [hm]), if_neg (by simp [hn]), hp]
  simp only
  rw [arrEq, if_neg hd]
  cases h : q.value with
  | arr k' sh' d' =>
    simp only
    by_cases hsh : sh = sh'
    · subst hsh
      have hl : d.length = d'.length := by rw [hf, hg k' sh d' h]
      rw [if_neg (by simp), if_neg (by simp [hpq.expected]), if_neg (hs _), if_neg (hs' _), Except.ok.injEq,
        allClose_iff hl]
      constructor
      · intro h
        exact ⟨k', d', rfl, h⟩
      · rintro ⟨k2, d2, h2, h3⟩
        cases h2
        exact h3
    · rw [if_pos hsh]
      constructor
      · intro h; simp at h
      · rintro ⟨k2, d2, h2, _⟩
        cases h2
        exact absurd rfl hsh
  | strs a s l =>
    cases a with
    | false => simp
    | true =>
      simp only
      constructor
      · intro h
        split at h
        · simp at h
        · rw [if_neg (by simp [hpq.expected]), if_neg (hs _), if_neg (hs' _)] at h
          simp at h
      · simp
  | _ => simp

/-- Two numbers compare equal exactly if they agree within tolerances. -/
theorem number_eq_iff {p q : Param α β n} (hpq : Alike p q) {k k' : Nat} {x y : Num β}
    (hp : p.value = .num k x) (hq : q.value = .num k' y)
    (hs : p.strict = true → Kind.num k ∈ p.expected ∧ Kind.num k' ∈ p.expected) :
    paramEq p q = .ok true ↔ Near p.rtol p.atol x y := by
  have h1 : ¬ (p.strict = true ∧ p.value.kind ∉ q.expected) := by
    rintro ⟨h1, h2⟩
    rw [hp, ← hpq.expected] at h2
    exact h2 (hs h1).1
  have h2 : ¬ (q.strict = true ∧ q.value.kind ∉ p.expected) := by
    rintro ⟨h1, h2⟩
    rw [hq] at h2
    rw [← hpq.strict] at h1
    exact h2 (hs h1).2
  rw [paramEq, if_neg (by simp [hpq.cls]), if_neg (by simp [hp, hq, Val.isNone]), if_neg (by simp [hp, Val.isNone]),
    if_neg (by simp [hq, Val.isNone]), restEq, if_neg h1, if_neg h2]
  simp [hp, hq, plainEq, flatEq, bcast, close_iff]

/-- Two strings that compare equal are the same apart from whitespace, and if blanks and line breaks are the only
whitespace in them, those that are the same apart from it compare equal. -/
theorem string_eq {p q : Param α β n} (hpq : Alike p q) {s t : Str} (hp : p.value = .str s) (hq : q.value = .str t)
    (hs : p.strict = true → Kind.str ∈ p.expected) :
    (paramEq p q = .ok true → letters s = letters t) ∧
      (BlanksOnly s → BlanksOnly t → letters s = letters t → paramEq p q = .ok true) := by
  have h1 : ¬ (p.strict = true ∧ p.value.kind ∉ q.expected) := by
    rintro ⟨h1, h2⟩
    rw [hp, ← hpq.expected] at h2
    exact h2 (hs h1)
  have h2 : ¬ (q.strict = true ∧ q.value.kind ∉ p.expected) := by
    rintro ⟨h1, h2⟩
    rw [hq] at h2
    rw [← hpq.strict] at h1
    exact h2 (hs h1)
  have h3 : paramEq p q = .ok (strEq s t) := by
    rw [paramEq, if_neg (by simp [hpq.cls]), if_neg (by simp [hp, hq, Val.isNone]), if_neg (by simp [hp, Val.isNone]),
      if_neg (by simp [hq, Val.isNone]), restEq, if_neg h1, if_neg h2]
    simp [hp, hq, textEq]
  rw [h3, Except.ok.injEq]
  exact ⟨strEq_letters, fun hs ht h => (strEq_iff hs ht).mpr h⟩

/-- If the relative tolerance is zero, which of two parameters with values of the same sort stands on the left does not
matter. -/
theorem param_symm_partial {p q : Param α β n} (hpq : Alike p q) (hr : p.rtol = 0) (hv : SameSort p.value q.value) :
    paramEq p q = paramEq q p := by
  obtain ⟨cls, v, rtol, atol, strict, expected, ign⟩ := p
  obtain ⟨cls', w, rtol', atol', strict', expected', ign'⟩ := q
  obtain ⟨h1, h2, h3, h4, h5, h6⟩ := hpq
  simp only at h1 h2 h3 h4 h5 h6 hr hv
  subst h1 h2 h3 h4 h5 h6 hr
  cases hv with
  | noneL => cases ign <;> cases w <;> simp [paramEq, Val.isNone]
  | noneR => cases ign <;> cases v <;> simp [paramEq, Val.isNone]
  | arr k k' sh sh' d d' hd hd' =>
    cases strict <;> simp [paramEq, Val.isNone, arrEq, hd, hd', allClose_symm atol true d d', eq_comm]
  | num k x y =>
    simp [paramEq, Val.isNone, restEq, plainEq, flatEq, bcast, close_symm atol true x y, Val.kind]
  | str s t =>
    simp [paramEq, Val.isNone, restEq, textEq, strEq_symm s t, Val.kind]
    grind
  | strs a s t l m =>
    have : ∀ x y : List Str, (decide (x = y)) = decide (y = x) := fun x y => by simp [eq_comm]
    simp [paramEq, Val.isNone, restEq, textEq, Val.kind, stripAll]
    grind

/-- Numbers drift by at most the absolute tolerance with each of a chain of comparisons. -/
theorem chain_drift (ps : Nat → Param α β n) (t : α) (m : Nat) (ha : ∀ i, Alike (ps i) (ps (i + 1)))
    (hr : ∀ i, (ps i).rtol = 0) (ht : ∀ i, (ps i).atol = t)
    (hv : ∀ i, ∃ k sh d, (ps i).value = .arr k sh d ∧ d ≠ [] ∧ Filled sh d)
    (h : ∀ i < m, paramEq (ps i) (ps (i + 1)) = .ok true) :
    ∃ sh k₀ d₀ k d, (ps 0).value = .arr k₀ sh d₀ ∧ (ps m).value = .arr k sh d ∧
      ∀ (j : Nat) (x : Num β), d₀[j]? = some x → ∃ y, d[j]? = some y ∧ Near 0 (m * t) x y := by
  induction m with
  | zero =>
    obtain ⟨k, sh, d, h1, _, _⟩ := hv 0
    exact ⟨sh, k, d, k, d, h1, h1, fun j x hx => ⟨x, hx, near_refl le_rfl (by simp) x⟩⟩
  | succ m ih =>
    obtain ⟨sh, k₀, d₀, k, d, h0, hm, hnear⟩ := ih (fun i hi => h i (by omega))
    obtain ⟨k1, sh1, d1, h1, hne, hf⟩ := hv m
    rw [hm] at h1
    cases h1
    obtain ⟨k2, sh2, d2, h2, _, hf2⟩ := hv (m + 1)
    have hlast := (array_eq_iff (ha m) hm hne hf (fun k' sh' d' h' => by rw [h2] at h'; cases h'; exact hf2)
      (by rw [h2]; simp)).mp (h m (by omega))
    obtain ⟨k3, d3, h3, hl, hall⟩ := hlast
    refine ⟨sh, k₀, d₀, k3, d3, h0, h3, fun j x hx => ?_⟩
    obtain ⟨y, hy, hxy⟩ := hnear j x hx
    have hlt : j < d3.length := by
      rw [← hl]
      exact (List.getElem?_eq_some_iff.mp hy).1
    refine ⟨d3[j], List.getElem?_eq_getElem hlt, ?_⟩
    have hyz := hall j y d3[j] hy (List.getElem?_eq_getElem hlt)
    rw [hr m, ht m] at hyz
    generalize d3[j] = z at hyz ⊢
    cases hxy with
    | nan => cases hyz; exact .nan
    | inf k => cases hyz; exact .inf k
    | fin x y hxy =>
      cases hyz with
      | fin _ z hyz =>
        refine .fin _ _ ?_
        have := Sized.mag_add (α := α) (x - y) (y - z)
        rw [sub_add_sub_cancel] at this
        push_cast
        linarith

end
end Verif.Eq
