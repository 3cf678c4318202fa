import Verif.Calib.Spec
import Verif.AntPair.Props
import Verif.Pol.Props
import Mathlib.Tactic.Linarith

namespace Verif.Calib
open Verif.Np Verif.Slices
open Verif.Pol (Str polnum2str polstr2num jnum2str jstr2num parseJpolstr polToFeed orients orient_cases)
set_option linter.unusedSectionVars false

/-! ### Lookups -/

theorem argminAbs_lt (l : List Int) (n : Int) (h : l ≠ []) : argminAbs l n < l.length := by
  induction l with
  | nil => exact absurd rfl h
  | cons x l ih =>
    cases l with
    | nil => simp [argminAbs]
    | cons y l =>
      have := ih (by simp)
      simp only [argminAbs]
      split
      · simp
      · simp only [List.length_cons] at this ⊢; omega

theorem argminAbs_mem (l : List Int) (n : Int) (h : n ∈ l) : l[argminAbs l n]? = some n := by
  induction l with
  | nil => simp at h
  | cons x l ih =>
    cases l with
    | nil =>
      simp only [List.mem_singleton] at h
      simp [argminAbs, h]
    | cons y l =>
      have hlt := argminAbs_lt (y :: l) n (by simp)
      simp only [argminAbs]
      by_cases hm : n ∈ y :: l
      · have hi := ih hm
        have hg : (y :: l).getD (argminAbs (y :: l) n) 0 = n := by
          rw [List.getD_eq_getElem?_getD, hi]; rfl
        rw [hg]
        split
        · rename_i hx
          simp only [sub_self, abs_zero] at hx
          have : x - n = 0 := abs_eq_zero.1 (le_antisymm hx (abs_nonneg _))
          simp; omega
        · rw [List.getElem?_cons_succ]; exact hi
      · have hx : x = n := by
          rcases List.mem_cons.1 h with h | h
          · exact h.symm
          · exact absurd h hm
        rw [if_pos (by rw [hx]; simp)]
        simp [hx]

theorem argminAbs_eq (l : List Int) (hn : l.Nodup) (k : Nat) (n : Int) (h : l[k]? = some n) : argminAbs l n = k := by
  have hm := argminAbs_mem l n (List.mem_of_getElem? h)
  have hk := (List.getElem?_eq_some_iff.1 h).1
  exact ((List.getElem?_inj (List.getElem?_eq_some_iff.1 hm).1 hn).1 (hm.trans h.symm))

theorem argminAbs_nat (l : List Nat) (n : Nat) (h : n ∈ l) : l[argminAbs (l.map Int.ofNat) n]? = some n := by
  have := argminAbs_mem (l.map Int.ofNat) n (List.mem_map.2 ⟨n, h, rfl⟩)
  rw [List.getElem?_map] at this
  cases hx : l[argminAbs (l.map Int.ofNat) n]? with
  | none => rw [hx] at this; simp at this
  | some m =>
    rw [hx] at this
    simp only [Option.map_some, Option.some.injEq] at this
    have : m = n := Int.ofNat.inj this
    rw [this]

/-- Dictionaries built from two lists without repeated keys. -/
theorem find_rev {α β : Type} [DecidableEq α] (l : List (α × β)) (hn : (l.map Prod.fst).Nodup) (a : α) (b : β) :
    (l.reverse.find? (fun p => decide (p.1 = a))).map Prod.snd = some b ↔ (a, b) ∈ l := by
  constructor
  · intro h
    cases hf : l.reverse.find? (fun p => decide (p.1 = a)) with
    | none => rw [hf] at h; simp at h
    | some p =>
      rw [hf] at h
      simp only [Option.map_some, Option.some.injEq] at h
      have h1 := List.mem_of_find?_eq_some hf
      have h2 := List.find?_some hf
      simp only [decide_eq_true_eq] at h2
      rw [← h, ← h2]
      exact List.mem_reverse.1 h1
  · intro h
    cases hf : l.reverse.find? (fun p => decide (p.1 = a)) with
    | none =>
      rw [List.find?_eq_none] at hf
      have := hf (a, b) (List.mem_reverse.2 h)
      simp at this
    | some p =>
      have h1 := List.mem_reverse.1 (List.mem_of_find?_eq_some hf)
      have h2 := List.find?_some hf
      simp only [decide_eq_true_eq] at h2
      have := List.inj_on_of_nodup_map hn h1 h (by simpa using h2)
      rw [this]; rfl

theorem Tel.Named.unique_name {t : Tel} (ht : t.Ok) {n : Nat} {s s' : Str} (h : t.Named n s) (h' : t.Named n s') : s = s' := by
  obtain ⟨i, h1, h2⟩ := h
  obtain ⟨j, h3, h4⟩ := h'
  have : i = j := (List.getElem?_inj (List.getElem?_eq_some_iff.1 h1).1 ht.numbers).1 (h1.trans h3.symm)
  subst this
  simpa using h2.symm.trans h4

theorem Tel.Named.unique_number {t : Tel} (ht : t.Ok) {n m : Nat} {s : Str} (h : t.Named n s) (h' : t.Named m s) : n = m := by
  obtain ⟨i, h1, h2⟩ := h
  obtain ⟨j, h3, h4⟩ := h'
  have : i = j := (List.getElem?_inj (List.getElem?_eq_some_iff.1 h2).1 ht.names).1 (h2.trans h4.symm)
  subst this
  simpa using h1.symm.trans h3

theorem mem_zip_iff {α β : Type} (xs : List α) (ys : List β) (x : α) (y : β) :
    (x, y) ∈ xs.zip ys ↔ ∃ i : Nat, xs[i]? = some x ∧ ys[i]? = some y := by
  rw [List.mem_iff_getElem?]
  constructor
  · rintro ⟨i, hi⟩
    rw [List.getElem?_zip_eq_some] at hi
    exact ⟨i, hi⟩
  · rintro ⟨i, hi⟩
    exact ⟨i, by rw [List.getElem?_zip_eq_some]; exact hi⟩

theorem calAnt_some (dt ct : Tel) (hd : dt.Ok) (hc : ct.Ok) (n m : Nat) :
    calAnt dt ct n = some m ↔ ∃ s, dt.Named n s ∧ ct.Named m s := by
  have k1 : ((dt.numbers.zip dt.names).map Prod.fst).Nodup := by
    rw [List.map_fst_zip (by rw [hd.length])]; exact hd.numbers
  have k2 : ((ct.names.zip ct.numbers).map Prod.fst).Nodup := by
    rw [List.map_fst_zip (by rw [hc.length])]; exact hc.names
  unfold calAnt
  rw [Option.bind_eq_some_iff]
  constructor
  · rintro ⟨s, h1, h2⟩
    rw [find_rev _ k1, mem_zip_iff] at h1
    rw [find_rev _ k2, mem_zip_iff] at h2
    obtain ⟨i, h2a, h2b⟩ := h2
    exact ⟨s, h1, i, h2b, h2a⟩
  · rintro ⟨s, h1, i, h2a, h2b⟩
    refine ⟨s, ?_, ?_⟩
    · rw [find_rev _ k1, mem_zip_iff]; exact h1
    · rw [find_rev _ k2, mem_zip_iff]; exact ⟨i, h2b, h2a⟩

end Verif.Calib
