import Mathlib.Data.List.Sort
import Mathlib.Data.List.Dedup
import Mathlib.Data.List.Range

/-!
The numpy and Python primitives used by the modelled code, on lists.  Every definition states the
documented behaviour of the primitive; exceptions (`IndexError`, `ValueError`) are `none`.
-/
namespace Verif.Np

variable {α β : Type*}

/-- `xs.take(inds)` / fancy indexing `xs[inds]` with non-negative integer indices: `none` is `IndexError`. -/
def take? (xs : List α) (inds : List Nat) : Option (List α) := inds.mapM (fun i => xs[i]?)

/-- `np.where(p(xs))[0]` / `np.nonzero(p(xs))[0]`: increasing positions at which `p` holds. -/
def whereIdx (p : α → Bool) (xs : List α) : List Nat :=
  (List.range xs.length).filter (fun i => (xs[i]?).any p)

/-- `np.isin(x, ys)` for one element. -/
def isin [BEq α] (x : α) (ys : List α) : Bool := ys.contains x

/-- `np.unique(xs)` / `sorted(set(xs))`: the distinct values in increasing order. -/
def unique [LinearOrder α] (xs : List α) : List α := xs.dedup.insertionSort (· ≤ ·)

/-- `idx` is a possible result of `np.argsort(keys)`.  numpy's default sort is not stable, so ties may
come out in any order: any arrangement of all positions with non-decreasing keys is allowed. -/
def IsArgsort [LinearOrder α] (keys : List α) (idx : List Nat) : Prop :=
  idx.Perm (List.range keys.length) ∧
    idx.Pairwise (fun i j => ∀ x y, keys[i]? = some x → keys[j]? = some y → x ≤ y)

/-- A Python slice with non-negative bounds; `step = none` is Python's `None`. -/
structure PSlice where
  start : Nat
  stop : Nat
  step : Option Int
  deriving DecidableEq, Repr

/-- Positions selected by a slice on an axis of length `n` (Python's `range(*s.indices(n))`), `none` when
the step is zero (`ValueError: slice step cannot be zero`). -/
def PSlice.sel (n : Nat) (s : PSlice) : Option (List Nat) :=
  let step := s.step.getD 1
  if step = 0 then none
  else if step > 0 then
    some ((List.range n).filter (fun i => s.start ≤ i && i < s.stop && (i - s.start) % step.toNat == 0))
  else
    let st := min s.start (n - 1)
    some (((List.range n).filter
      (fun i => s.stop < i && i ≤ st && (st - i) % step.natAbs == 0)).reverse)

/-! ### Basic facts -/

theorem strictSorted_ext {l₁ l₂ : List Nat} (h₁ : l₁.Pairwise (· < ·)) (h₂ : l₂.Pairwise (· < ·))
    (h : ∀ x, x ∈ l₁ ↔ x ∈ l₂) : l₁ = l₂ := h₁.eq_of_mem_iff h₂ (fun {x} => h x)

theorem range_filter_sorted (n : Nat) (p : Nat → Bool) : ((List.range n).filter p).Pairwise (· < ·) :=
  List.Pairwise.filter _ List.pairwise_lt_range

theorem mem_whereIdx {p : α → Bool} {xs : List α} {i : Nat} :
    i ∈ whereIdx p xs ↔ ∃ x, xs[i]? = some x ∧ p x = true := by
  unfold whereIdx
  simp only [List.mem_filter, List.mem_range]
  constructor
  · rintro ⟨hi, hp⟩
    rw [List.getElem?_eq_getElem hi] at hp ⊢
    exact ⟨_, rfl, by simpa using hp⟩
  · rintro ⟨x, hx, hp⟩
    refine ⟨?_, by simp [hx, hp]⟩
    by_contra hge
    rw [List.getElem?_eq_none (by omega)] at hx
    simp at hx

theorem whereIdx_sorted (p : α → Bool) (xs : List α) : (whereIdx p xs).Pairwise (· < ·) :=
  range_filter_sorted _ _

theorem mem_unique [LinearOrder α] {xs : List α} {x : α} : x ∈ unique xs ↔ x ∈ xs := by
  simp [unique]

theorem unique_sorted [LinearOrder α] (xs : List α) : (unique xs).Pairwise (· < ·) := by
  unfold unique
  have h1 : (xs.dedup.insertionSort (· ≤ ·)).Pairwise (· ≤ ·) := List.pairwise_insertionSort _ _
  have h2 : (xs.dedup.insertionSort (· ≤ ·)).Nodup :=
    (List.perm_insertionSort _ _).nodup_iff.2 (List.nodup_dedup xs)
  have := h1.and h2
  exact this.imp (fun ⟨a, b⟩ => lt_of_le_of_ne a b)

theorem unique_length [LinearOrder α] (xs : List α) : (unique xs).length = xs.dedup.length := by
  simp [unique]

theorem take?_eq_some {xs : List α} {inds : List Nat} {ys : List α} :
    take? xs inds = some ys ↔ ys.length = inds.length ∧
      ∀ k i : Nat, inds[k]? = some i → ys[k]? = xs[i]? ∧ i < xs.length := by
  induction inds generalizing ys with
  | nil =>
    simp only [take?, List.mapM_nil, List.length_nil, List.length_eq_zero_iff]
    constructor
    · intro h; simp at h; subst h; simp
    · rintro ⟨rfl, _⟩; simp
  | cons i is ih =>
    simp only [take?, List.mapM_cons] at ih ⊢
    by_cases hi : i < xs.length
    · rw [List.getElem?_eq_getElem hi]
      constructor
      · intro h
        cases hm : List.mapM (fun i => xs[i]?) is with
        | none => simp [hm] at h
        | some zs =>
          simp [hm] at h
          subst h
          have := (ih (ys := zs)).1 hm
          refine ⟨by simp [this.1], ?_⟩
          intro k j hk
          cases k with
          | zero => simp at hk; subst hk; simp [hi]
          | succ k => simp at hk ⊢; exact this.2 k j hk
      · rintro ⟨hl, h⟩
        cases ys with
        | nil => simp at hl
        | cons y ys =>
          have h0 := h 0 i (by simp)
          simp [List.getElem?_eq_getElem hi] at h0
          have := (ih (ys := ys)).2 ⟨by simpa using hl, fun k j hk => by
            have := h (k+1) j (by simpa using hk); simpa using this⟩
          simp [this, h0.1]
    · rw [List.getElem?_eq_none (by omega)]
      constructor
      · intro h; simp at h
      · rintro ⟨_, h⟩
        have := (h 0 i (by simp)).2
        omega

theorem take?_isSome_iff {xs : List α} {inds : List Nat} :
    (take? xs inds).isSome ↔ ∀ i ∈ inds, i < xs.length := by
  induction inds with
  | nil => simp [take?]
  | cons i is ih =>
    simp only [take?, List.mapM_cons] at ih ⊢
    by_cases hi : i < xs.length
    · rw [List.getElem?_eq_getElem hi]
      cases hm : List.mapM (fun i => xs[i]?) is with
      | none => rw [hm] at ih; simp at ih ⊢; intro _; exact ih
      | some zs => rw [hm] at ih; simp at ih ⊢; exact ⟨hi, ih⟩
    · rw [List.getElem?_eq_none (by omega)]
      simp; intro h; omega

/-- Taking all positions in order is the identity. -/
theorem take?_range (xs : List α) : take? xs (List.range xs.length) = some xs := by
  rw [take?_eq_some]
  refine ⟨by simp, ?_⟩
  intro k i hk
  have hlt : k < xs.length := by
    by_contra h
    rw [List.getElem?_eq_none (by simpa using h)] at hk
    simp at hk
  rw [List.getElem?_range hlt] at hk
  simp at hk
  subst hk
  exact ⟨rfl, hlt⟩

end Verif.Np
