import Mathlib.Tactic.Ring
import Mathlib.Tactic.Linarith
import Mathlib.Data.List.Nodup
import Verif.MirVis.Model

/-! Lists of windows and blocks. -/

namespace Verif.MirVis
open Verif.Np

theorem med_const {α : Type} [LinearOrder α] {half : α → α → α} {dflt x : α} {l : List α} (hl : l ≠ []) (h : ∀ y ∈ l, y = x) (hh : half x x = x) :
    med half dflt l = x := by
  have hp : 0 < l.length := List.length_pos_of_ne_nil hl
  have g : ∀ i, i < l.length → (l.insertionSort (· ≤ ·)).getD i dflt = x := by
    intro i hi
    have hi' : i < (l.insertionSort (· ≤ ·)).length := by rw [List.length_insertionSort]; exact hi
    rw [List.getD_eq_getElem?_getD, List.getElem?_eq_getElem hi', Option.getD_some]
    exact h _ ((List.mem_insertionSort (· ≤ ·)).1 (List.getElem_mem hi'))
  unfold med
  dsimp only
  split
  · exact g _ (by omega)
  · rw [g _ (by omega), g _ (by omega), hh]

theorem start_mono (l : List Int) (n : Int → Nat) {i j : Nat} (hij : i < j) (hj : j < l.length) :
    ((l.take i).map n).sum + n (l[i]'(by omega)) ≤ ((l.take j).map n).sum := by
  induction l generalizing i j with
  | nil => exact absurd hj (Nat.not_lt_zero _)
  | cons a t ih =>
    obtain ⟨j', rfl⟩ : ∃ j', j = j' + 1 := ⟨j - 1, by omega⟩
    cases i with
    | zero => simp
    | succ i' =>
      have := ih (i := i') (j := j') (by omega) (by simpa using hj)
      simp only [List.take_succ_cons, List.map_cons, List.sum_cons, List.getElem_cons_succ]
      omega

/-- Windows do not share channels. -/
theorem slices_disjoint {l : List Int} (n : Int → Nat) {a b : Int} (ha : a ∈ l) (hb : b ∈ l) {c : Nat}
    (h1 : ((l.take (l.idxOf a)).map n).sum ≤ c) (h2 : c < ((l.take (l.idxOf a)).map n).sum + n a)
    (h3 : ((l.take (l.idxOf b)).map n).sum ≤ c) (h4 : c < ((l.take (l.idxOf b)).map n).sum + n b) : a = b := by
  have la := List.idxOf_lt_length_of_mem ha
  have lb := List.idxOf_lt_length_of_mem hb
  rcases Nat.lt_trichotomy (l.idxOf a) (l.idxOf b) with h | h | h
  · have := start_mono l n h lb
    rw [List.getElem_idxOf la] at this
    omega
  · have e1 := List.getElem_idxOf la
    have e2 := List.getElem_idxOf lb
    rw [← e1, ← e2]
    simp only [h]
  · have := start_mono l n h la
    rw [List.getElem_idxOf lb] at this
    omega

theorem flatMap_at {β : Type} (l : List Int) (n : Int → Nat) (f : Int → List β) (hf : ∀ i ∈ l, (f i).length = n i) (i : Nat) (hi : i < l.length) (k : Nat)
    (hk : k < n l[i]) : (l.flatMap f)[((l.take i).map n).sum + k]? = (f l[i])[k]? := by
  induction l generalizing i with
  | nil => exact absurd hi (Nat.not_lt_zero _)
  | cons a t ih =>
    rw [List.flatMap_cons]
    have ha : (f a).length = n a := hf a List.mem_cons_self
    cases i with
    | zero =>
      simp only [List.take_zero, List.map_nil, List.sum_nil, Nat.zero_add, List.getElem_cons_zero] at hk ⊢
      rw [List.getElem?_append_left (by omega)]
    | succ i =>
      simp only [List.take_succ_cons, List.map_cons, List.sum_cons, List.getElem_cons_succ] at hk ⊢
      rw [List.getElem?_append_right (by omega), ← ih (fun x hx => hf x (List.mem_cons_of_mem _ hx)) i (by simpa using hi) hk]
      congr 1
      omega

theorem flatMap_id {β : Type} {l : List Int} (n : Int → Nat) (f : Int → List β) (hf : ∀ i ∈ l, (f i).length = n i) {a : Int} (ha : a ∈ l) (k : Nat)
    (hk : k < n a) : (l.flatMap f)[((l.take (l.idxOf a)).map n).sum + k]? = (f a)[k]? := by
  have la := List.idxOf_lt_length_of_mem ha
  have e := List.getElem_idxOf la
  have := flatMap_at l n f hf (l.idxOf a) la k (by rw [e]; exact hk)
  rw [this, e]

theorem mem_blocks {ins : List Nat} {step x : Nat} (hs : 0 < step) (hx : x ∈ ins) : ∃ b ∈ blocks ins step, x ∈ b := by
  obtain ⟨i, hi, rfl⟩ := List.mem_iff_getElem.1 hx
  refine ⟨_, List.mem_map.2 ⟨i / step, ?_, rfl⟩, ?_⟩
  · rw [List.mem_range, Nat.div_lt_iff_lt_mul hs]
    have h1 := Nat.div_add_mod (ins.length + step - 1) step
    have h2 := Nat.mod_lt (ins.length + step - 1) hs
    have h3 : step * ((ins.length + step - 1) / step) = (ins.length + step - 1) / step * step := Nat.mul_comm _ _
    omega
  · refine List.mem_iff_getElem?.2 ⟨i % step, ?_⟩
    rw [List.getElem?_take_of_lt (Nat.mod_lt _ hs), List.getElem?_drop]
    have : i / step * step + i % step = i := by rw [Nat.mul_comm]; exact Nat.div_add_mod i step
    rw [this, List.getElem?_eq_getElem hi]

/-- Of what is put into an array one after the other, the last one stays. -/
theorem foldl_last {S X Y : Type} (p : S → X → Bool) (v : S → X → Y) (l : List S) (a : X → Y) (x : X) :
    l.foldl (fun a s => fun x => if p s x then v s x else a x) a x =
      match (l.filter (fun s => p s x)).getLast? with
      | some s => v s x
      | none => a x := by
  induction l generalizing a with
  | nil => rfl
  | cons s t ih =>
    rw [List.foldl_cons, ih, List.filter_cons]
    cases hp : p s x
    · simp [hp]
    · simp only [hp, if_true, List.getLast?_cons]
      cases (List.filter (fun s => p s x) t).getLast? <;> rfl

theorem getLast_all {S : Type} {l : List S} {s : S} (hs : s ∈ l) (h : ∀ t ∈ l, t = s) : l.getLast? = some s := by
  rw [List.getLast?_eq_some_getLast (List.ne_nil_of_mem hs)]
  exact congrArg some (h _ (List.getLast_mem _))

theorem two_values {l : List Int} (hl : l.length = 2) (hn : l.Nodup) {p q : Int} (h1 : (1 : Int) ∈ l) (hp : p ∈ l) (hq : q ∈ l)
    (h : p = 1 ↔ q = 1) : p = q := by
  match l, hl with
  | [x, y], _ =>
    simp only [List.mem_cons, List.not_mem_nil, or_false] at h1 hp hq
    have : x ≠ y := by simp at hn; exact hn
    omega

end Verif.MirVis
