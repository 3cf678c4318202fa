import Verif.FreqSort.Spec
import Mathlib.Data.List.Perm.Basic

namespace Verif.FreqSort
open Verif.Np

theorem sel_map {α β : Type} (f : α → β) : ∀ (m : List Bool) (xs : List α), sel m (xs.map f) = (sel m xs).map f
  | [], xs => by simp [sel]
  | b :: m, [] => by cases b <;> simp [sel]
  | true :: m, x :: xs => by simp [sel, sel_map f m xs]
  | false :: m, x :: xs => by simp [sel, sel_map f m xs]

theorem sel_filter {α : Type} (g : α → Option Int) (w : Int) : ∀ (s : List Int) (xs : List α),
    s.map some = xs.map g → sel (s.map (· == w)) xs = xs.filter (fun x => g x == some w)
  | [], xs, h => by
    have : xs = [] := by simpa using h.symm
    subst this; rfl
  | v :: s, [], h => by simp at h
  | v :: s, x :: xs, h => by
    simp only [List.map_cons, List.cons.injEq] at h
    have ih := sel_filter g w s xs h.2
    by_cases hv : v = w
    · subst hv
      simp [sel, ← h.1, ih]
    · have : (v == w) = false := by simpa using hv
      rw [List.map_cons, this]
      simp only [sel, ih, List.filter_cons, ← h.1]
      simp [hv]

theorem put_perm {α : Type} : ∀ (m : List Bool) (xs vs : List α), vs.Perm (sel m xs) → (put m xs vs).Perm xs := by
  have main : ∀ (m : List Bool) (xs vs : List α), vs.length = (sel m xs).length →
      (put m xs vs ++ sel m xs).Perm (xs ++ vs) := by
    intro m
    induction m with
    | nil =>
      intro xs vs h
      have : vs = [] := by simpa [sel] using h
      subst this; simp [put, sel]
    | cons b m ih =>
      intro xs vs h
      cases b with
      | false =>
        rcases xs with _ | ⟨x, xs⟩
        · have : vs = [] := by simpa [sel] using h
          subst this; simp [put, sel]
        · simp only [sel] at h
          simp only [put, sel, List.cons_append]
          exact (ih xs vs h).cons x
      | true =>
        rcases xs with _ | ⟨x, xs⟩
        · have : vs = [] := by simpa [sel] using h
          subst this; simp [put, sel]
        · rcases vs with _ | ⟨v, vs⟩
          · simp [sel] at h
          · simp only [sel, List.length_cons, Nat.add_right_cancel_iff] at h
            simp only [put, sel, List.cons_append]
            have := ih xs vs h
            calc v :: (put m xs vs ++ x :: sel m xs)
                |>.Perm (v :: x :: (put m xs vs ++ sel m xs)) := List.Perm.cons _ List.perm_middle
              _ |>.Perm (v :: x :: (xs ++ vs)) := (this.cons x).cons v
              _ |>.Perm (x :: v :: (xs ++ vs)) := List.Perm.swap _ _ _
              _ |>.Perm (x :: (xs ++ v :: vs)) := List.Perm.cons _ List.perm_middle.symm
  intro m xs vs h
  have h1 := main m xs vs h.length_eq
  have h2 : (put m xs vs ++ vs).Perm (xs ++ vs) := (List.Perm.append_left _ h).trans h1
  exact (List.perm_append_right_iff vs).1 h2

/-- Writing at the positions of window `w` values that belong to window `w`. -/
theorem put_facts (g : Nat → Option Int) (w : Int) : ∀ (s : List Int) (xs vs : List Nat), s.map some = xs.map g →
    vs.length = (sel (s.map (· == w)) xs).length → (∀ v ∈ vs, g v = some w) →
    (put (s.map (· == w)) xs vs).map g = s.map some ∧
    (put (s.map (· == w)) xs vs).filter (fun x => g x == some w) = vs ∧
    ∀ w', w' ≠ w → (put (s.map (· == w)) xs vs).filter (fun x => g x == some w') = xs.filter (fun x => g x == some w')
  | [], xs, vs, h, hl, hv => by
    have : xs = [] := by simpa using h.symm
    subst this
    have : vs = [] := by simpa [sel] using hl
    subst this
    simp [put]
  | v :: s, [], vs, h, hl, hv => by simp at h
  | v :: s, x :: xs, vs, h, hl, hv => by
    simp only [List.map_cons, List.cons.injEq] at h
    by_cases hvw : v = w
    · subst hvw
      rcases vs with _ | ⟨u, vs⟩
      · simp [sel] at hl
      simp only [List.map_cons, beq_self_eq_true, sel, List.length_cons, Nat.add_right_cancel_iff] at hl
      obtain ⟨h1, h2, h3⟩ := put_facts g v s xs vs h.2 hl (fun a ha => hv a (by simp [ha]))
      have hu := hv u (by simp)
      simp only [List.map_cons, beq_self_eq_true, put]
      refine ⟨by rw [h1, hu], ?_, ?_⟩
      · rw [List.filter_cons, h2]; simp [hu]
      · intro w' hw'
        rw [List.filter_cons, List.filter_cons, h3 w' hw', hu, ← h.1]
        simp [hw'.symm]
    · have hb : (v == w) = false := by simpa using hvw
      simp only [List.map_cons, hb, sel] at hl
      obtain ⟨h1, h2, h3⟩ := put_facts g w s xs vs h.2 hl hv
      simp only [List.map_cons, hb, put]
      refine ⟨by rw [h1, h.1], ?_, ?_⟩
      · rw [List.filter_cons, h2, ← h.1]; simp [hvw]
      · intro w' hw'
        rw [List.filter_cons, List.filter_cons, h3 w' hw']

theorem fancy_map {α : Type} (xs : List α) (idx : List Nat) (h : ∀ i ∈ idx, i < xs.length) :
    (fancy xs idx).map some = idx.map (fun i => xs[i]?) := by
  induction idx with
  | nil => rfl
  | cons i idx ih =>
    have hi := h i (by simp)
    have e : xs[i]? = some xs[i] := List.getElem?_eq_getElem hi
    unfold fancy at ih ⊢
    rw [List.filterMap_cons, e]
    simp only [List.map_cons, ih (fun j hj => h j (by simp [hj])), e]

theorem fancy_range {α : Type} (xs : List α) : fancy xs (List.range xs.length) = xs := by
  have := fancy_map xs (List.range xs.length) (fun i hi => List.mem_range.1 hi)
  have e : (List.range xs.length).map (fun i => xs[i]?) = xs.map some := by
    apply List.ext_getElem?
    intro i
    rw [List.getElem?_map, List.getElem?_map]
    by_cases hi : i < xs.length
    · simp [hi]
    · simp [List.getElem?_eq_none (not_lt.1 hi), hi]
  rw [e] at this
  exact List.map_injective_iff.2 (Option.some_injective _) this

theorem fancy_perm {α : Type} (xs : List α) (idx : List Nat) (h : idx.Perm (List.range xs.length)) :
    (fancy xs idx).Perm xs := by
  have := h.filterMap (fun i => xs[i]?)
  have e := fancy_range xs
  unfold fancy at e ⊢
  rwa [e] at this

theorem perm_lt {n : Nat} {idx : List Nat} (h : idx.Perm (List.range n)) : ∀ i ∈ idx, i < n :=
  fun i hi => List.mem_range.1 (h.mem_iff.1 hi)

/-- Values picked in argsort order of their keys are sorted by key. -/
theorem fancy_sorted {α β : Type} [LinearOrder β] (keys : List β) (xs : List α) (f : α → Option β)
    (hk : keys.map some = xs.map f) (idx : List Nat) (h : IsArgsort keys idx) :
    (fancy xs idx).Pairwise (fun a b => ∀ x y, f a = some x → f b = some y → x ≤ y) := by
  unfold fancy
  rw [List.pairwise_filterMap]
  refine h.2.imp ?_
  intro i j hij a ha b hb x y hx hy
  have get : ∀ (k : Nat) (c : α) (z : β), xs[k]? = some c → f c = some z → keys[k]? = some z := by
    intro k c z hc hz
    have := congrArg (fun l => l[k]?) hk
    simp only [List.getElem?_map, hc, Option.map_some, hz] at this
    cases hkk : keys[k]? with
    | none => rw [hkk] at this; simp at this
    | some q => rw [hkk] at this; simpa using this
  exact hij x y (get i a x ha hx) (get j b y hb hy)

theorem isIndexPerm_spec {l : List Int} {n : Nat} (h : isIndexPerm l n = true) :
    (l.map Int.toNat).Perm (List.range n) ∧ ∀ i ∈ l, 0 ≤ i := by
  unfold isIndexPerm at h
  simp only [Bool.and_eq_true, decide_eq_true_eq] at h
  have hp : l.Perm ((List.range n).map (fun i : Nat => (i : Int))) := by
    rw [← h.2]; exact (List.perm_insertionSort _ l).symm
  constructor
  · have := hp.map Int.toNat
    rw [List.map_map] at this
    have e : (Int.toNat ∘ fun i : Nat => (i : Int)) = id := by funext i; simp
    rwa [e, List.map_id] at this
  · intro i hi
    obtain ⟨k, _, rfl⟩ := List.mem_map.1 (hp.mem_iff.1 hi)
    simp

theorem isIndexPerm_iff {l : List Int} {n : Nat} :
    isIndexPerm l n = true ↔ l.Perm ((List.range n).map (fun i : Nat => (i : Int))) := by
  unfold isIndexPerm
  simp only [Bool.and_eq_true, decide_eq_true_eq]
  constructor
  · intro h
    rw [← h.2]; exact (List.perm_insertionSort _ l).symm
  · intro h
    refine ⟨by simpa using h.length_eq, ?_⟩
    refine List.Perm.eq_of_pairwise (le := (· ≤ ·)) (fun a b _ _ h1 h2 => le_antisymm h1 h2)
      (List.pairwise_insertionSort _ _) ?_ ((List.perm_insertionSort _ l).trans h)
    rw [List.pairwise_map]
    exact (List.pairwise_le_range).imp (fun h => by exact_mod_cast h)

theorem chain_range {n : Nat} {idx : List Nat} (hp : idx.Perm (List.range n)) :
    idx.IsChain (· < ·) ↔ idx = List.range n := by
  rw [List.isChain_iff_pairwise]
  constructor
  · intro h
    exact strictSorted_ext h List.pairwise_lt_range (fun i => hp.mem_iff)
  · rintro rfl
    exact List.pairwise_lt_range

theorem finish_arrangement {n : Nat} {idx : List Nat} (hp : idx.Perm (List.range n)) :
    arrangement n (finish idx) = idx := by
  unfold arrangement finish
  by_cases h : idx.IsChain (· < ·)
  · rw [if_pos h, Option.getD_none, (chain_range hp).1 h]
  · rw [if_neg h]; rfl

end Verif.FreqSort
