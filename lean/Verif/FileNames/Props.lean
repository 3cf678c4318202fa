import Verif.FileNames.Model
import Mathlib.Data.List.Sort
import Mathlib.Data.List.Perm.Basic

/-! # C224: names of the files of combined objects -/
set_option linter.unusedSectionVars false

namespace Verif.FileNames

variable {N : Type} [LinearOrder N]

/-! ### Specification -/

/-- In ascending order, without repetition. -/
def Ascending (l : List N) : Prop := l.Pairwise (· < ·)

/-- `out` is the names of all objects that have some. -/
def NamesOf (objs : List (Option (List N))) (out : Option (List N)) : Prop :=
  (out = none ↔ ∀ o ∈ objs, o = none) ∧ ∀ l, out = some l → ∀ n, n ∈ l ↔ ∃ x, some x ∈ objs ∧ n ∈ x

/-! ### Steps -/

theorem mem_union {a b : List N} {n : N} : n ∈ sortedUnion a b ↔ n ∈ a ∨ n ∈ b := by
  unfold sortedUnion
  rw [List.mem_insertionSort, List.mem_dedup, List.mem_append]

theorem ascending_union (a b : List N) : Ascending (sortedUnion a b) := by
  have h1 : (sortedUnion a b).Pairwise (· ≤ ·) := List.pairwise_insertionSort _ _
  have h2 : (sortedUnion a b).Nodup := (List.perm_insertionSort _ _).nodup_iff.2 (List.nodup_dedup _)
  exact (h1.and h2).imp fun h => lt_of_le_of_ne h.1 h.2

theorem ascending_ext {a b : List N} (ha : Ascending a) (hb : Ascending b) (h : ∀ n, n ∈ a ↔ n ∈ b) : a = b := by
  have na : a.Nodup := ha.imp fun h => h.ne
  have nb : b.Nodup := hb.imp fun h => h.ne
  exact ((List.perm_ext_iff_of_nodup na nb).2 h).eq_of_pairwise (fun _ _ _ _ h1 h2 => absurd h1 (lt_asymm h2)) ha hb

theorem combine_names (a b : Option (List N)) : NamesOf [a, b] (combine a b) := by
  cases a <;> cases b <;> simp [NamesOf, combine, mem_union]

/-! ### Theorems -/

/-- **C224.** A combined object has the names of all objects, and none only if none of them has any. -/
theorem all_names (first : Option (List N)) (others : List (Option (List N))) :
    NamesOf (first :: others) (combineAll first others) := by
  induction others generalizing first with
  | nil =>
    cases first <;> simp [NamesOf, combineAll]
  | cons o others ih =>
    have h1 := ih (combine first o)
    have h2 := combine_names first o
    have he : combineAll first (o :: others) = combineAll (combine first o) others := rfl
    rw [he]
    refine ⟨?_, ?_⟩
    · rw [h1.1]
      simp only [List.mem_cons, forall_eq_or_imp]
      rw [h2.1]
      simp [and_assoc]
    · intro l hl n
      rw [h1.2 l hl n]
      constructor
      · rintro ⟨x, hx, hn⟩
        rcases List.mem_cons.1 hx with hx | hx
        · obtain ⟨y, hy, hn'⟩ := (h2.2 x hx.symm n).1 hn
          refine ⟨y, ?_, hn'⟩
          simp only [List.mem_cons, List.not_mem_nil, or_false] at hy ⊢
          tauto
        · exact ⟨x, by simp [hx], hn⟩
      · rintro ⟨y, hy, hn⟩
        rcases List.mem_cons.1 hy with hy' | hy'
        · cases hc : combine first o with
          | none => have := h2.1.1 hc first (by simp); rw [this] at hy'; simp at hy'
          | some x => exact ⟨x, by simp, (h2.2 x hc n).2 ⟨y, by simp [hy'], hn⟩⟩
        · rcases List.mem_cons.1 hy' with hy' | hy'
          · cases hc : combine first o with
            | none => have := h2.1.1 hc o (by simp); rw [this] at hy'; simp at hy'
            | some x => exact ⟨x, by simp, (h2.2 x hc n).2 ⟨y, by simp [hy'], hn⟩⟩
          · exact ⟨y, by simp [hy'], hn⟩

/-- **C224.** If at least two of the objects have names, they are in ascending order, each once, whatever they were before. -/
theorem two_ascending {a b : List N} {l : List N} {u v w : List (Option (List N))} (first : Option (List N))
    (others : List (Option (List N))) (hs : first :: others = u ++ some a :: v ++ some b :: w)
    (h : combineAll first others = some l) : Ascending l := by
  have key : ∀ (others : List (Option (List N))) (acc : List N), Ascending acc → ∀ l, combineAll (some acc) others = some l →
      Ascending l := by
    intro others
    induction others with
    | nil => intro acc ha l hl; simp only [combineAll, List.foldl_nil, Option.some.injEq] at hl; exact hl ▸ ha
    | cons o others ih =>
      intro acc ha l hl
      cases o with
      | none => exact ih acc ha l hl
      | some y => exact ih _ (ascending_union acc y) l hl
  -- one more list with names makes it ascending
  have one : ∀ (others : List (Option (List N))) (acc : List N), (∃ b, some b ∈ others) → ∀ l,
      combineAll (some acc) others = some l → Ascending l := by
    intro others
    induction others with
    | nil => rintro acc ⟨b, hb⟩; simp at hb
    | cons o others ih =>
      rintro acc ⟨b, hb⟩ l hl
      cases o with
      | none => exact ih acc ⟨b, by simpa using hb⟩ l hl
      | some y => exact key others _ (ascending_union acc y) l hl
  have gen : ∀ (others : List (Option (List N))) (first : Option (List N)) (u : List (Option (List N))),
      first :: others = u ++ some a :: v ++ some b :: w → combineAll first others = some l → Ascending l := by
    intro others
    induction others with
    | nil =>
      intro first u hs _
      have := congrArg List.length hs
      simp at this
      omega
    | cons o others ih =>
      intro first u hs h
      cases first with
      | some x =>
        refine one (o :: others) x ?_ l h
        cases u with
        | nil =>
          simp only [List.nil_append, List.cons_append, List.cons.injEq] at hs
          exact ⟨b, by rw [hs.2]; simp⟩
        | cons z u =>
          simp only [List.cons_append, List.cons.injEq] at hs
          exact ⟨b, by rw [hs.2]; simp⟩
      | none =>
        cases u with
        | nil => simp at hs
        | cons z u =>
          simp only [List.cons_append, List.cons.injEq] at hs
          exact ih o u hs.2 h
  exact gen others first u hs h

/-- **C224.** The order in which objects are combined does not matter if the names of each of them are ascending (as of objects that
are read from one file, or combined themselves). -/
theorem order_irrelevant {a b : Option (List N)} {as bs : List (Option (List N))} (hp : (a :: as).Perm (b :: bs))
    (ha : ∀ x, some x ∈ a :: as → Ascending x) : combineAll a as = combineAll b bs := by
  have asc : ∀ (others : List (Option (List N))) (first : Option (List N)), (∀ x, some x ∈ first :: others → Ascending x) → ∀ l,
      combineAll first others = some l → Ascending l := by
    intro others
    induction others with
    | nil => intro first hf l hl; exact hf l (by simp only [combineAll, List.foldl_nil] at hl; simp [hl])
    | cons o others ih =>
      intro first hf l hl
      refine ih (combine first o) (fun x hx => ?_) l hl
      rcases List.mem_cons.1 hx with hx | hx
      · cases first with
        | none => exact hf x (by simp only [combine] at hx; simp [hx])
        | some y =>
          cases o with
          | none => exact hf x (by simp only [combine] at hx; simp [hx])
          | some z =>
            simp only [combine, Option.some.injEq] at hx
            rw [hx]
            exact ascending_union y z
      · exact hf x (by simp [hx])
  have n1 := all_names a as
  have n2 := all_names b bs
  cases h1 : combineAll a as with
  | none =>
    have := n1.1.1 h1
    exact (n2.1.2 fun o ho => this o (hp.mem_iff.2 ho)).symm
  | some l =>
    cases h2 : combineAll b bs with
    | none =>
      have := n1.1.2 fun o ho => n2.1.1 h2 o (hp.mem_iff.1 ho)
      rw [h1] at this
      simp at this
    | some m =>
      refine congrArg some (ascending_ext (asc as a ha l h1) (asc bs b (fun x hx => ha x (hp.mem_iff.2 hx)) m h2) fun n => ?_)
      rw [n1.2 l h1 n, n2.2 m h2 n]
      simp only [hp.mem_iff]

/-- **C224.** Objects that are combined in groups have the same names as those that are combined one by one. -/
theorem groups (a b c : Option (List N)) (ha : ∀ x, a = some x → Ascending x) (hb : ∀ x, b = some x → Ascending x)
    (hc : ∀ x, c = some x → Ascending x) : combine (combine a b) c = combine a (combine b c) := by
  cases a with
  | none => cases b <;> rfl
  | some x =>
    cases b with
    | none => rfl
    | some y =>
      cases c with
      | none => rfl
      | some z =>
        simp only [combine, Option.some.injEq]
        exact ascending_ext (ascending_union _ _) (ascending_union _ _) fun n => by simp only [mem_union, or_assoc]

/-- Adding objects to themselves, or no names, changes nothing. -/
theorem same_names {x : List N} (hx : Ascending x) : combine (some x) (some x) = some x ∧ combine (some x) none = some x ∧
    combine none (some x) = some x :=
  ⟨congrArg some (ascending_ext (ascending_union x x) hx fun n => by simp [mem_union]), rfl, rfl⟩

/-- **C224.** If only one object has names, they stay as they are. -/
theorem one_kept (x : List N) (m n : Nat) (first : Option (List N)) (others : List (Option (List N)))
    (h : first :: others = List.replicate m none ++ some x :: List.replicate n none) : combineAll first others = some x := by
  have end_ : ∀ n, combineAll (some x) (List.replicate n none) = some x := by
    intro n
    induction n with
    | zero => rfl
    | succ n ih => rw [List.replicate_succ]; exact ih
  induction m generalizing first others with
  | zero =>
    simp only [List.replicate_zero, List.nil_append, List.cons.injEq] at h
    rw [h.1, h.2]
    exact end_ n
  | succ m ih =>
    rw [List.replicate_succ, List.cons_append, List.cons.injEq] at h
    cases others with
    | nil => simp at h
    | cons o others =>
      rw [h.1]
      exact ih o others h.2

end Verif.FileNames
