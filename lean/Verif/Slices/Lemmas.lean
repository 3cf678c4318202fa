import Verif.Slices.Spec
import Mathlib.Tactic.Ring

namespace Verif.Slices
open Verif.Np

/-- The arithmetic progression `a, a+k, …` of length `m`. -/
def ap (a k m : Nat) : List Nat := (List.range m).map (fun j => a + j * k)

theorem ap_sorted {a k m : Nat} (hk : 0 < k) : (ap a k m).Pairwise (· < ·) := by
  unfold ap
  rw [List.pairwise_map]
  exact List.pairwise_lt_range.imp (fun {i j} h => by
    have := Nat.mul_lt_mul_of_pos_right h hk; omega)

theorem ap_succ (a k m : Nat) : ap a k (m + 1) = ap a k m ++ [a + m * k] := by
  simp [ap, List.range_succ]

theorem ap_one (a k : Nat) : ap a k 1 = [a] := by simp [ap]

theorem sel_ap {n a k m : Nat} (hk : 0 < k) (hn : a + m * k < n) :
    PSlice.sel n ⟨a, a + m * k + 1, some (k : Int)⟩ = some (ap a k (m + 1)) := by
  have h0 : ¬ ((k : Int) = 0) := by omega
  have h1 : (k : Int) > 0 := by omega
  simp only [PSlice.sel, Option.getD_some, if_neg h0, if_pos h1]
  congr 1
  apply strictSorted_ext (range_filter_sorted _ _) (ap_sorted hk)
  intro x
  simp only [List.mem_filter, List.mem_range, Bool.and_eq_true, decide_eq_true_eq, beq_iff_eq,
    Int.toNat_natCast, ap, List.mem_map]
  constructor
  · rintro ⟨_, ⟨hax, hxb⟩, hmod⟩
    obtain ⟨j, hj⟩ := Nat.dvd_of_mod_eq_zero hmod
    refine ⟨j, ?_, ?_⟩
    · by_contra hge
      have : (m + 1) * k ≤ j * k := Nat.mul_le_mul_right _ (by omega)
      have e1 : (m + 1) * k = m * k + k := by ring
      have e2 : k * j = j * k := by ring
      omega
    · have e2 : k * j = j * k := by ring
      omega
  · rintro ⟨j, hj, rfl⟩
    have : j * k ≤ m * k := Nat.mul_le_mul_right _ (by omega)
    refine ⟨by omega, ⟨by omega, by omega⟩, ?_⟩
    rw [Nat.add_sub_cancel_left]
    exact Nat.mul_mod_left _ _

theorem sel_none_eq (n a b : Nat) : PSlice.sel n ⟨a, b, none⟩ = PSlice.sel n ⟨a, b, some 1⟩ := rfl

theorem sel_single {n a : Nat} (hn : a < n) (k : Nat) (hk : 0 < k) :
    PSlice.sel n ⟨a, a + 1, some (k : Int)⟩ = some [a] := by
  have := sel_ap (n := n) (a := a) (m := 0) hk (by simpa using hn)
  simpa [ap] using this

theorem allPicks_append (n : Nat) (es fs : List Entry) (a b : List Nat)
    (ha : allPicks n es = some a) (hb : allPicks n fs = some b) :
    allPicks n (es ++ fs) = some (a ++ b) := by
  unfold allPicks at *
  cases he : es.mapM (Entry.picks n) with
  | none => simp [he] at ha
  | some x =>
    cases hf : fs.mapM (Entry.picks n) with
    | none => simp [hf] at hb
    | some y =>
      simp [he] at ha; simp [hf] at hb
      simp [List.mapM_append, he, hf, ← ha, ← hb]

theorem allPicks_singleton (n : Nat) (e : Entry) : allPicks n [e] = e.picks n := by
  unfold allPicks
  cases h : e.picks n <;> simp [h]

/-- Loop invariant of `_convert_to_slices` after a non-empty prefix `l` has been processed. -/
def Inv (n : Nat) (l : List Nat) (s : St) : Prop :=
  ∃ done a k m, 0 < k ∧ l = done ++ ap a k (m + 1) ∧ allPicks n (s.slices.map Entry.slice) = some done ∧
    s.start = some a ∧
    ((s.lastStep = none ∧ m = 0) ∨ (s.lastStep = some (k : Int) ∧ s.lastInd = a + m * k))

theorem loop_inv (n : Nat) (l : List Nat) (hl : l ≠ []) (hs : l.Pairwise (· < ·)) (hn : ∀ i ∈ l, i < n) :
    Inv n l (l.foldl loopStep {}) := by
  induction l using List.reverseRecOn with
  | nil => exact absurd rfl hl
  | append_singleton l x ih =>
    rw [List.foldl_append]
    by_cases hnil : l = []
    · subst hnil
      refine ⟨[], x, 1, 0, by decide, by simp [ap], by simp [allPicks, loopStep], by simp [loopStep], ?_⟩
      simp [loopStep]
    · have hs' := (List.pairwise_append.1 hs)
      obtain ⟨done, a, k, m, hk, hl', hp, hst, hcase⟩ :=
        ih hnil hs'.1 (fun i hi => hn i (by simp [hi]))
      generalize hS : l.foldl loopStep {} = s at *
      have hlast : a + m * k ∈ l := by
        rw [hl', ap_succ]; simp
      have hlt : a + m * k < x := hs'.2.2 _ hlast x (by simp)
      have hbd : a + m * k < n := hn _ (by simp [hlast])
      rcases hcase with ⟨hls, rfl⟩ | ⟨hls, hli⟩
      · -- second element of a run
        have ha : a < x := by simpa using hlt
        refine ⟨done, a, x - a, 1, by omega, ?_, ?_, ?_, Or.inr ?_⟩
        · rw [hl', ap_one, ap_succ, ap_one, List.append_assoc]
          congr 2
          simp; omega
        · simp [loopStep, hls, hst, hp]
        · simp [loopStep, hls, hst]
        · simp only [List.foldl_cons, List.foldl_nil, loopStep, hls, hst]
          constructor
          · congr 1; omega
          · omega
      · by_cases hstep : (x : Int) - s.lastInd = k
        · refine ⟨done, a, k, m + 1, hk, ?_, ?_, ?_, Or.inr ?_⟩
          · rw [hl', ap_succ a k (m + 1), List.append_assoc]
            congr 3
            rw [hli] at hstep
            have : (m + 1) * k = m * k + k := by ring
            push_cast at hstep
            omega
          · simp [loopStep, hls, hstep, hp]
          · simp [loopStep, hls, hstep, hst]
          · simp only [List.foldl_cons, List.foldl_nil, loopStep, hls, hstep]
            simp
            rw [hli] at hstep
            have : (m + 1) * k = m * k + k := by ring
            push_cast at hstep
            omega
        · refine ⟨l, x, 1, 0, by decide, by simp [ap], ?_, ?_, Or.inl ?_⟩
          · simp only [List.foldl_cons, List.foldl_nil, loopStep, hls, hst]
            rw [if_pos hstep]
            rw [List.map_append, hl']
            apply allPicks_append _ _ _ _ _ hp
            simp only [List.map_cons, List.map_nil, allPicks_singleton, Entry.picks, Option.getD_some, hli]
            exact sel_ap hk hbd
          · simp [loopStep, hls, hstep]
          · simp [loopStep, hls, hstep]

theorem greedy_picks (n : Nat) (l : List Nat) (hl : l ≠ []) (hs : l.Pairwise (· < ·))
    (hn : ∀ i ∈ l, i < n) : allPicks n ((greedy l).map Entry.slice) = some l := by
  obtain ⟨done, a, k, m, hk, hl', hp, hst, hcase⟩ := loop_inv n l hl hs hn
  have hlast : l.getLastD 0 = a + m * k := by
    rw [hl', ap_succ, ← List.append_assoc]; simp [List.getLastD_eq_getLast?]
  have hbd : a + m * k < n := hn _ (by rw [hl', ap_succ]; simp)
  unfold greedy
  simp only [List.map_append, List.map_cons, List.map_nil]
  conv_rhs => rw [hl']
  apply allPicks_append _ _ _ _ _ hp
  rw [allPicks_singleton, hst, hlast]
  simp only [Entry.picks, Option.getD_some]
  rcases hcase with ⟨hls, rfl⟩ | ⟨hls, hli⟩
  · rw [hls, sel_none_eq, ap_one]
    have := sel_single (n := n) (a := a) (by simpa using hbd) 1 (by decide)
    simpa using this
  · rw [hls]
    exact sel_ap hk hbd

/-- A list with constant consecutive differences is an arithmetic progression. -/
theorem const_diff_ap (a b : Nat) (t : List Nat) (hab : a < b)
    (h : ∀ p ∈ (a :: b :: t).zip (b :: t), (p.2 : Int) - p.1 = (b : Int) - a) :
    a :: b :: t = ap a (b - a) (t.length + 2) := by
  have key : ∀ (t : List Nat) (c : Nat), (∀ p ∈ (c :: t).zip t, (p.2 : Int) - p.1 = (b : Int) - a) →
      c :: t = ap c (b - a) (t.length + 1) := by
    intro t
    induction t with
    | nil => intro c _; simp [ap]
    | cons d t ih =>
      intro c hc
      have hd := hc (c, d) (by simp)
      simp only at hd
      have := ih d (fun p hp => hc p (by simp [hp]))
      have hdc : d = c + (b - a) := by omega
      rw [List.length_cons, this]
      simp only [ap]
      rw [List.range_succ_eq_map (n := t.length + 1)]
      simp only [List.map_cons, Nat.zero_mul, Nat.add_zero, List.map_map]
      congr 1
      apply List.map_congr_left
      intro j _
      simp only [Function.comp, Nat.succ_eq_add_one]
      rw [hdc]
      ring
  exact key (b :: t) a h

theorem getLastD_ap (a k m : Nat) : (ap a k (m + 1)).getLastD 0 = a + m * k := by
  rw [ap_succ]; simp [List.getLastD_eq_getLast?]

theorem const_diff_sel (n a b : Nat) (t : List Nat) (hab : a < b) (hn : ∀ i ∈ a :: b :: t, i < n)
    (h : ∀ p ∈ (a :: b :: t).zip (b :: t), (p.2 : Int) - p.1 = (b : Int) - a) :
    PSlice.sel n ⟨a, (a :: b :: t).getLastD 0 + 1, some ((b : Int) - a)⟩ = some (a :: b :: t) := by
  have hap := const_diff_ap a b t hab h
  have hlast : (a :: b :: t).getLastD 0 = a + (t.length + 1) * (b - a) := by
    rw [hap, getLastD_ap]
  have hmem : a + (t.length + 1) * (b - a) ∈ a :: b :: t := by
    rw [hap, ap_succ]; simp
  rw [hlast]
  conv_rhs => rw [hap]
  have hcast : (b : Int) - a = ((b - a : Nat) : Int) := by omega
  rw [hcast]
  exact sel_ap (by omega) (hn _ hmem)

theorem evalInd_wf {i : Inds} (hwf : WellFormed i) (hns : ∀ s, i ≠ .slice s) (hni : ∀ k, i ≠ .int k) :
    evalInd i ≠ [] ∧ (evalInd i).Pairwise (· < ·) := by
  cases i with
  | slice s => exact absurd rfl (hns s)
  | int k => exact absurd rfl (hni k)
  | mask m =>
    simp only [evalInd, WellFormed] at *
    refine ⟨?_, whereIdx_sorted _ _⟩
    obtain ⟨k, hk, hkt⟩ := List.getElem_of_mem hwf
    have : k ∈ whereIdx (fun b => b) m := mem_whereIdx.2 ⟨true, by rw [List.getElem?_eq_getElem hk, hkt], rfl⟩
    intro h
    rw [h] at this; simp at this
  | list l => exact hwf

end Verif.Slices
