import Verif.CalAdd.Model

/-! C89: when ranges overlap. -/
namespace Verif.CalAdd
open Verif.Np Verif.FreqSort Verif.Add

variable {K : Type} [LinearOrder K]

/-- Two ranges have more than an end in common. -/
def Overlap (a b : K × K) : Prop := a.1 < b.2 ∧ b.1 < a.2

/-- Ranges at two different positions overlap. -/
def SomeOverlap (l : List (K × K)) : Prop := ∃ (i j : Nat) (a b : K × K), i ≠ j ∧ l[i]? = some a ∧ l[j]? = some b ∧ Overlap a b

theorem not_someOverlap (l : List (K × K)) : ¬ SomeOverlap l ↔ l.Pairwise (fun a b => ¬ Overlap a b) := by
  rw [List.pairwise_iff_getElem]
  constructor
  · intro h i j hi hj hij ho
    exact h ⟨i, j, _, _, hij.ne, List.getElem?_eq_getElem hi, List.getElem?_eq_getElem hj, ho⟩
  · rintro h ⟨i, j, a, b, hij, ha, hb, ho⟩
    obtain ⟨hi, rfl⟩ := List.getElem?_eq_some_iff.1 ha
    obtain ⟨hj, rfl⟩ := List.getElem?_eq_some_iff.1 hb
    rcases lt_or_gt_of_ne hij with hlt | hlt
    · exact h i j hi hj hlt ho
    · exact h j i hj hi hlt ⟨ho.2, ho.1⟩

theorem adjacent_false (l : List (K × K)) (hw : ∀ r ∈ l, r.1 ≤ r.2) : adjacent l = false ↔ l.Pairwise (fun a b => a.2 ≤ b.1) := by
  induction l with
  | nil => simp [adjacent]
  | cons a l ih =>
    cases l with
    | nil => simp [adjacent]
    | cons b l =>
      have ih' := ih (fun r hr => hw r (by simp [hr]))
      unfold adjacent
      rw [Bool.or_eq_false_iff, ih', List.pairwise_cons (a := a), decide_eq_false_iff_not, not_lt]
      constructor
      · rintro ⟨h1, h2⟩
        refine ⟨?_, h2⟩
        intro c hc
        rcases List.mem_cons.1 hc with rfl | hc
        · exact h1
        · exact h1.trans ((hw b (by simp)).trans ((List.pairwise_cons.1 h2).1 c hc))
      · rintro ⟨h1, h2⟩
        exact ⟨h1 b (by simp), h2⟩

theorem sorted_starts (s : Argsort K) (l : List (K × K)) :
    (fancy l (s.run (l.map Prod.fst))).Perm l ∧ (fancy l (s.run (l.map Prod.fst))).Pairwise (fun a b => a.1 ≤ b.1) := by
  obtain ⟨h1, h2⟩ := s.sorts (l.map Prod.fst)
  rw [List.length_map] at h1
  refine ⟨fancy_perm l _ h1, ?_⟩
  unfold fancy
  rw [List.pairwise_filterMap]
  refine h2.imp ?_
  intro i j h a ha b hb
  exact h a.1 b.1 (by rw [List.getElem?_map, ha]; rfl) (by rw [List.getElem?_map, hb]; rfl)

/-- **C89.** Ranges are refused exactly if one of them ends before it starts. -/
theorem range_overlap_refused (s : Argsort K) (l : List (K × K)) : rangeOverlap s l = .error .illFormed ↔ ∃ r ∈ l, r.2 < r.1 := by
  unfold rangeOverlap
  split
  · rename_i h; simpa using h
  · rename_i h
    simp only [List.any_eq_true, decide_eq_true_eq, not_exists, not_and] at h
    simp only [reduceCtorEq, false_iff, not_exists, not_and]
    exact h

/-- **C89.** If no overlap is found, there is none. -/
theorem range_overlap_false (s : Argsort K) (l : List (K × K)) (h : rangeOverlap s l = .ok false) : ¬ SomeOverlap l := by
  unfold rangeOverlap at h
  split at h
  · cases h
  rename_i hw
  simp only [List.any_eq_true, decide_eq_true_eq, not_exists, not_and, not_lt] at hw
  simp only [Except.ok.injEq] at h
  obtain ⟨hp, -⟩ := sorted_starts s l
  rw [adjacent_false _ (fun r hr => hw r (hp.mem_iff.1 hr))] at h
  rw [not_someOverlap]
  have hsym : ∀ {a b : K × K}, ¬ Overlap a b → ¬ Overlap b a := fun h h' => h ⟨h'.2, h'.1⟩
  rw [← hp.pairwise_iff hsym]
  exact h.imp (fun hab ho => absurd ho.2 (not_lt.2 hab))

/-- **C89.** For ranges that are not empty, an overlap is found exactly if there is one, whatever the order of the ranges and the sorting method. -/
theorem range_overlap_iff (s : Argsort K) (l : List (K × K)) (hl : ∀ r ∈ l, r.1 < r.2) :
    ∃ b, rangeOverlap s l = .ok b ∧ (b = true ↔ SomeOverlap l) := by
  have hw : ¬ (l.any (fun r => decide (r.2 < r.1)) = true) := by
    simp only [List.any_eq_true, decide_eq_true_eq, not_exists, not_and, not_lt]
    exact fun r hr => (hl r hr).le
  refine ⟨_, by unfold rangeOverlap; rw [if_neg hw], ?_⟩
  rw [← not_iff_not, Bool.not_eq_true, not_someOverlap]
  obtain ⟨hp, hs⟩ := sorted_starts s l
  rw [adjacent_false _ (fun r hr => (hl r (hp.mem_iff.1 hr)).le)]
  have hsym : ∀ {a b : K × K}, ¬ Overlap a b → ¬ Overlap b a := fun h h' => h ⟨h'.2, h'.1⟩
  rw [← hp.pairwise_iff hsym]
  constructor
  · exact fun h => h.imp (fun hab ho => absurd ho.2 (not_lt.2 hab))
  · intro h
    have h3 := hs.and h
    refine h3.imp_of_mem ?_
    rintro a b ha hb ⟨h1, h2⟩
    by_contra hlt
    rw [not_le] at hlt
    exact h2 ⟨h1.trans_lt (hl b (hp.mem_iff.1 hb)), hlt⟩

end Verif.CalAdd
