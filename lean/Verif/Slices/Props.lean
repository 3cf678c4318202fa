import Verif.Slices.Lemmas

/-!
C07: an index object converted to slices picks the same positions in the same order.
-/
namespace Verif.Slices
open Verif.Np

/-- C07, main statement: for every slice, integer, non-empty mask or strictly increasing index list,
every option setting and every axis on which the original request is legal, the returned entries,
applied in order and concatenated, pick exactly what the original request picks. -/
theorem convert_picks (i : Inds) (frac : Rat) (maxN : Option Nat) (ret : Bool) (n : Nat) (l : List Nat)
    (hwf : WellFormed i) (hp : picks n i = some l) :
    allPicks n (convert i frac maxN ret).1 = some l := by
  by_cases hsl : ∃ s, i = .slice s
  · obtain ⟨s, rfl⟩ := hsl
    simp only [convert, allPicks_singleton, Entry.picks]
    exact hp
  by_cases hin : ∃ k, i = .int k
  · obtain ⟨k, rfl⟩ := hin
    simp only [picks] at hp
    split at hp
    · rename_i hk
      simp only [Option.some.injEq] at hp
      subst hp
      simp only [convert, allPicks_singleton, Entry.picks]
      have := sel_single (n := n) (a := k) hk 1 (by decide)
      simpa using this
    · simp at hp
  have hns : ∀ s, i ≠ .slice s := fun s h => hsl ⟨s, h⟩
  have hni : ∀ k, i ≠ .int k := fun k h => hin ⟨k, h⟩
  obtain ⟨hne, hsorted⟩ := evalInd_wf hwf hns hni
  have hl : l = evalInd i ∧ ∀ j ∈ l, j < n := by
    cases i with
    | slice s => exact absurd rfl (hns s)
    | int k => exact absurd rfl (hni k)
    | mask m =>
      simp only [picks] at hp
      split at hp
      · rename_i hm
        simp only [Option.some.injEq] at hp
        subst hp
        refine ⟨rfl, fun j hj => ?_⟩
        obtain ⟨x, hx, _⟩ := mem_whereIdx.1 hj
        by_contra hge
        rw [List.getElem?_eq_none (by omega)] at hx
        simp at hx
      · simp at hp
    | list m =>
      simp only [picks] at hp
      split at hp
      · rename_i hm
        simp only [Option.some.injEq] at hp
        subst hp
        exact ⟨rfl, hm⟩
      · simp at hp
  obtain ⟨hle, hbd⟩ := hl
  have hconv : convert i frac maxN ret = convertSeq i (evalInd i) frac maxN ret := by
    cases i with
    | slice s => exact absurd rfl (hns s)
    | int k => exact absurd rfl (hni k)
    | mask m => rfl
    | list m => rfl
  rw [hconv]
  clear hconv
  unfold convertSeq
  rw [← hle] at hne hsorted ⊢
  have hown : allPicks n [Entry.inds i] = some l := by
    rw [allPicks_singleton]; exact hp
  match l, hne, hsorted, hbd, hown with
  | [], h, _, _, _ => exact absurd rfl h
  | [a], _, _, hbd, _ =>
    simp only [List.length_singleton]
    simp [allPicks_singleton, Entry.picks]
    have := sel_single (n := n) (a := a) (hbd a (by simp)) 1 (by decide)
    simpa using this
  | [a, b], _, hs, hbd, _ =>
    have hab : a < b := by simpa using hs
    have h1 := const_diff_sel n a b [] hab hbd (by simp)
    simp [allPicks_singleton, Entry.picks]
    have : max ((b : Int) - a) 1 = (b : Int) - a := by omega
    rw [this]
    simpa using h1
  | a :: b :: c :: t, hne, hs, hbd, hown =>
    have hlen0 : ¬ ((a :: b :: c :: t).length = 0) := by simp
    have hlen2 : ¬ ((a :: b :: c :: t).length ≤ 2) := by simp
    simp only [if_neg hlen0, if_neg hlen2]
    have hab : a < b := by
      have := List.pairwise_cons.1 hs
      exact this.1 b (by simp)
    split
    · split
      · rename_i hall
        simp only [allPicks_singleton, Entry.picks]
        apply const_diff_sel n a b (c :: t) hab hbd
        intro p hp
        have := List.all_eq_true.1 hall p hp
        simpa using this
      · exact hown
    · split
      · exact hown
      · exact greedy_picks n _ hne hs hbd

example : WellFormed (.list [1, 3, 5, 9, 10, 11, 20]) ∧
    picks 30 (.list [1, 3, 5, 9, 10, 11, 20]) = some [1, 3, 5, 9, 10, 11, 20] ∧
    (convert (.list [1, 3, 5, 9, 10, 11, 20]) 1 (some 5) false).1 =
      [.slice ⟨1, 6, some 2⟩, .slice ⟨9, 12, some 1⟩, .slice ⟨20, 21, none⟩] :=
  ⟨by unfold WellFormed; decide, by decide +kernel⟩

/-- The flag is `True` exactly when slices were accepted: whenever it is `True` every entry is a slice,
and when it is `False` with `return_index_on_fail` on a non-empty request the request itself comes back. -/
theorem convert_flag (i : Inds) (frac : Rat) (maxN : Option Nat) (ret : Bool) :
    ((convert i frac maxN ret).2 = true → ∀ e ∈ (convert i frac maxN ret).1, ∃ s, e = .slice s) ∧
    ((convert i frac maxN ret).2 = false → ret = true → evalInd i ≠ [] →
      (convert i frac maxN ret).1 = [.inds i]) := by
  have key : ∀ e, ((convertSeq i e frac maxN ret).2 = true →
        ∀ x ∈ (convertSeq i e frac maxN ret).1, ∃ s, x = .slice s) ∧
      ((convertSeq i e frac maxN ret).2 = false → ret = true → e ≠ [] →
        (convertSeq i e frac maxN ret).1 = [.inds i]) := by
    intro e
    unfold convertSeq
    split
    · rename_i h; simp [List.length_eq_zero_iff.1 h]
    · split
      · simp
      · split
        · simp only; split <;> simp
        · simp only
          split
          · rename_i h; simp [h]
          · rename_i h
            refine ⟨fun _ x hx => ?_, fun h1 h2 => absurd ⟨h2, h1⟩ h⟩
            obtain ⟨s, _, hs⟩ := List.mem_map.1 hx
            exact ⟨s, hs.symm⟩
  cases i with
  | slice s => simp [convert]
  | int k => simp [convert]
  | mask m => exact key _
  | list m => exact key _

example : (convert (.list [0, 5, 6, 20, 33]) (1/10) none true) = ([.inds (.list [0, 5, 6, 20, 33])], false) ∧
    evalInd (.list [0, 5, 6, 20, 33]) ≠ [] := by decide +kernel

/-- `max_nslice`: with an explicit limit, a `True` flag on a list of three or more indices means that no
more than that many slices are used. -/
theorem convert_max_nslice (l : List Nat) (frac : Rat) (m : Nat) (ret : Bool)
    (h : (convert (.list l) frac (some m) ret).2 = true) (hl : 2 < l.length) :
    (convert (.list l) frac (some m) ret).1.length ≤ m := by
  have e : convert (.list l) frac (some m) ret = convertSeq (.list l) l frac (some m) ret := rfl
  rw [e] at h ⊢
  unfold convertSeq at h ⊢
  have h0 : ¬ l.length = 0 := by omega
  have h2 : ¬ l.length ≤ 2 := by omega
  rw [if_neg h0, if_neg h2] at h ⊢
  split at h
  · rename_i hm
    simp only [if_pos hm] at *
    split at h
    · rename_i h2
      simp only [Option.some.injEq] at hm
      rw [if_pos h2]; simp [hm.1]
    · simp at h
  · rename_i hm
    simp only [if_neg hm] at *
    split at h
    · rename_i h2; simp_all
    · rename_i h2
      rw [if_neg h2]; simpa [nsliceCheck] using h

example : (convert (.list [1, 2, 3, 7, 8, 9]) 0 (some 2) true).2 = true := by decide +kernel

/-- `slicify` on a strictly increasing non-empty list picks the same positions. -/
theorem slicify_picks (l : List Nat) (n : Nat) (hne : l ≠ []) (hs : l.Pairwise (· < ·))
    (hn : ∀ i ∈ l, i < n) : (slicify l).picks n = some l := by
  unfold slicify
  match l, hne, hs, hn with
  | [], h, _, _ => exact absurd rfl h
  | [a], _, _, hn =>
    simp [SlicifyOut.picks]
    have := sel_single (n := n) (a := a) (hn a (by simp)) 1 (by decide)
    simpa using this
  | a :: b :: t, _, hs, hn =>
    have hab : a < b := (List.pairwise_cons.1 hs).1 b (by simp)
    rw [if_neg (by simp)]
    split
    · rename_i hd
      simp only [SlicifyOut.picks]
      have h2 : (a :: b :: t).length > 1 := by simp
      rw [if_pos h2]
      apply const_diff_sel n a b t hab hn
      intro p hp
      have hmem1 : ((p.2 : Int) - p.1) ∈
          (((a :: b :: t).zip (a :: b :: t).tail).map (fun p => (p.2 : Int) - p.1)).dedup := by
        rw [List.mem_dedup]; exact List.mem_map.2 ⟨p, hp, rfl⟩
      have hmem2 : ((b : Int) - a) ∈
          (((a :: b :: t).zip (a :: b :: t).tail).map (fun p => (p.2 : Int) - p.1)).dedup := by
        rw [List.mem_dedup]; exact List.mem_map.2 ⟨(a, b), by simp, rfl⟩
      generalize (((a :: b :: t).zip (a :: b :: t).tail).map (fun p => (p.2 : Int) - p.1)).dedup = d at *
      match d, hd, hmem1, hmem2 with
      | [x], _, h1, h2 => simp at h1 h2; rw [h1, h2]
    · simp only [SlicifyOut.picks, picks]
      rw [if_pos hn]

example : slicify [2, 5, 8] = .slice ⟨2, 9, some 3⟩ ∧ [2, 5, 8].Pairwise (· < ·) := by decide

/-- The hypothesis "strictly increasing" cannot be dropped: a descending pair is converted to a slice that
picks nothing. -/
theorem convert_descending_counterexample :
    picks 10 (.list [5, 3]) = some [5, 3] ∧
      allPicks 10 (convert (.list [5, 3]) (1/10) none false).1 = some [] := by decide +kernel

/-- A longer descending list loses its last element. -/
theorem slicify_descending_counterexample :
    picks 10 (.list [3, 2, 1]) = some [3, 2, 1] ∧ (slicify [3, 2, 1]).picks 10 = some [3] := by
  decide +kernel

/-- Repeated indices give a zero step, which raises when used. -/
theorem slicify_repeated_counterexample :
    picks 10 (.list [4, 4]) = some [4, 4] ∧ (slicify [4, 4]).picks 10 = none := by decide +kernel

/-- The empty list gives a slice that raises when used. -/
theorem convert_empty_counterexample :
    picks 10 (.list []) = some [] ∧ allPicks 10 (convert (.list []) (1/10) none false).1 = none := by
  decide +kernel

end Verif.Slices
