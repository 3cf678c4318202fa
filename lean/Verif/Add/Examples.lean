import Verif.Add.Props
import Verif.FreqSort.Examples

/-! Concrete cases and a counterexample for C31, C32. -/
namespace Verif.Add
open Verif.Np Verif.FreqSort

/-- Run a check on a result. -/
def accepted {α : Type} (e : Except Err α) (f : α → Bool) : Bool :=
  match e with
  | .ok r => f r
  | .error _ => false

theorem accepted_ok {α : Type} {e : Except Err α} {f : α → Bool} (h : accepted e f = true) : ∃ r, e = .ok r ∧ f r = true := by
  cases e with
  | error _ => simp [accepted] at h
  | ok r => exact ⟨r, rfl, h⟩

abbrev addI (this other : Obj Nat Int Int) : Except Err (Obj Nat Int Int) := add (stable Nat) (stable Int) (stable Int) this other

/-- Two rows, three channels in two windows, one polarization; the cell value is `100 i + 10 j + k + 1`. -/
def one : Obj Nat Int Int where
  blt := [7, 3]
  uvw := [70, 30]
  lst := [71, 31]
  pc := [1, 0]
  freq := [5, 2, 4]
  spw := [1, 1, 0]
  width := [9, 8, 7]
  spws := [1, 0]
  pol := [-5]
  data i j k := 100 * i + 10 * j + k + 1
  flag _ _ _ := false
  nsample _ _ _ := 1

/-- The same rows in another order and a new one last; other channels; the same polarization and a new one. -/
def two : Obj Nat Int Int where
  blt := [3, 7, 5]
  uvw := [30, 70, 50]
  lst := [31, 71, 51]
  pc := [0, 1, 0]
  freq := [9, 4]
  spw := [1, 2]
  width := [3, 6]
  spws := [1, 2]
  pol := [-5, -6]
  data i j k := -(100 * i + 10 * j + k + 1)
  flag i _ _ := decide (i = 0)
  nsample i _ _ := i

theorem one_valid : Valid one := by
  refine ⟨by decide, by decide, by decide, by decide, by decide, ?_, by decide, by decide, by decide⟩
  intro w
  constructor <;> (intro h; simp [one] at h ⊢; omega)

theorem two_valid : Valid two := by
  refine ⟨by decide, by decide, by decide, by decide, by decide, ?_, by decide, by decide, by decide⟩
  intro w
  constructor <;> (intro h; simp [two] at h ⊢; omega)

theorem one_two_first : OverlapsFirst one two := by
  refine ⟨?_, ?_, ?_⟩ <;> (unfold OverlapFirst; decide +kernel)

theorem one_two_ok : ∃ r, addI one two = .ok r ∧ r.blt = [7, 5, 3] ∧ r.chan = [(0, 4), (1, 2), (1, 5), (1, 9), (2, 4)] ∧ r.pol = [-5, -6] ∧
    r.data 2 1 0 = 111 ∧ r.data 2 3 0 = -1 ∧ r.flag 1 0 0 = true ∧ r.uvw = [70, 50, 30] := by
  have h : accepted (addI one two) (fun r => decide (r.blt = [7, 5, 3] ∧ r.chan = [(0, 4), (1, 2), (1, 5), (1, 9), (2, 4)] ∧ r.pol = [-5, -6] ∧
    r.data 2 1 0 = 111 ∧ r.data 2 3 0 = -1 ∧ r.flag 1 0 0 = true ∧ r.uvw = [70, 50, 30])) = true := by decide +kernel
  obtain ⟨r, h1, h2⟩ := accepted_ok h
  exact ⟨r, h1, by simpa using h2⟩

/-- The theorems apply to a cell of this object, to one of the other, to one of neither and to the metadata. -/
example : ∃ r, addI one two = .ok r ∧ Cell r 3 (1, 2) (-5) 111 false 1 ∧ Cell r 5 (2, 4) (-6) (-212) false 2 ∧
    Cell r 5 (0, 4) (-5) 0 true 0 ∧ r.blt.Nodup ∧ Follows r.blt one.blt r.uvw one.uvw 3 := by
  obtain ⟨r, h, hb, hc, hp, -⟩ := one_two_ok
  refine ⟨r, h, ?_, ?_, ?_, (add_label_sets one_valid two_valid h).1.1, ((add_row_metadata one_valid two_valid h).1 3 (by decide)).1⟩
  · refine add_keeps_this one_valid two_valid h 3 (1, 2) (-5) 111 false 1 ?_ ?_
    · exact ⟨⟨1, 1, 0, by decide, by decide, by decide, by decide⟩, ⟨1, 1, 0, by decide, by decide, by decide, by decide⟩,
        ⟨1, 1, 0, by decide, by decide, by decide, by decide⟩⟩
    · rintro ⟨-, hc, -⟩; revert hc; decide
  · refine add_keeps_other_partial one_valid two_valid one_two_first h 5 (2, 4) (-6) (-212) false 2 ?_
    exact ⟨⟨2, 1, 1, by decide, by decide, by decide, by decide⟩, ⟨2, 1, 1, by decide, by decide, by decide, by decide⟩,
        ⟨2, 1, 1, by decide, by decide, by decide, by decide⟩⟩
  · refine add_pads one_valid two_valid h 5 (0, 4) (-5) ⟨by rw [hb]; decide, by rw [hc]; decide, by rw [hp]; decide⟩ ?_ ?_
    · rintro ⟨-, hc, -⟩; revert hc; decide
    · rintro ⟨hb, -⟩; revert hb; decide

/-- Objects that share a valid cell are refused. -/
example : addI one one = .error .overlap := by
  refine (add_outcome one_valid one_valid).2.2.2 ⟨⟨7, (1, 5), -5, ⟨by decide, by decide, by decide⟩, ⟨by decide, by decide, by decide⟩⟩, ?_, ?_⟩ <;>
  · intro h
    obtain ⟨⟨i, j, k, -, -, -, hv⟩, -⟩ := h 7 (1, 5) (-5) ⟨by decide, by decide, by decide⟩ ⟨by decide, by decide, by decide⟩
    simp only [one] at hv
    omega

/-- This object with all its data zero and flagged. -/
def blank : Obj Nat Int Int := { one with data := fun _ _ _ => 0, flag := fun _ _ _ => true }

theorem blank_valid : Valid blank := by
  obtain ⟨a, b, c, d, e, f, g, h, i⟩ := one_valid
  exact ⟨a, b, c, d, e, f, g, h, i⟩

theorem blank_has (x : Nat) (c : Int × Int) (z : Int) (h : Has blank x c z) : At blank blank.data x c z 0 ∧ At blank blank.flag x c z true := by
  obtain ⟨h1, h2, h3⟩ := h
  obtain ⟨i, hi⟩ := List.mem_iff_getElem?.1 h1
  obtain ⟨j, hj⟩ := List.mem_iff_getElem?.1 h2
  obtain ⟨k, hk⟩ := List.mem_iff_getElem?.1 h3
  exact ⟨⟨i, j, k, hi, hj, hk, rfl⟩, ⟨i, j, k, hi, hj, hk, rfl⟩⟩

/-- An object without valid data can be filled, but only in this order. -/
example : (∃ r, addI blank one = .ok r) ∧ addI one blank = .error .swapOrder := by
  constructor
  · exact (add_outcome blank_valid one_valid).1.2 (.inr fun x c z h _ => blank_has x c z h)
  · refine (add_outcome one_valid blank_valid).2.1.2 ⟨⟨7, (1, 5), -5, ⟨by decide, by decide, by decide⟩, ⟨by decide, by decide, by decide⟩⟩,
      ?_, fun x c z _ h => blank_has x c z h⟩
    intro h
    obtain ⟨⟨i, j, k, -, -, -, hv⟩, -⟩ := h 7 (1, 5) (-5) ⟨by decide, by decide, by decide⟩ ⟨by decide, by decide, by decide⟩
    simp only [one] at hv
    omega

/-- A valid cell of this object is in the sum. -/
example : ∃ r, addI one two = .ok r ∧ Cell r 7 (0, 4) (-5) 21 false 1 := by
  obtain ⟨r, h, -⟩ := one_two_ok
  exact ⟨r, h, add_never_loses_this one_valid two_valid h 7 (0, 4) (-5) 21 false 1
    ⟨⟨0, 2, 0, by decide, by decide, by decide, by decide⟩, ⟨0, 2, 0, by decide, by decide, by decide, by decide⟩,
      ⟨0, 2, 0, by decide, by decide, by decide, by decide⟩⟩ (.inl (by decide))⟩

/-- The usual cases meet the condition. -/
example : OverlapsFirst one { two with blt := [3, 7], pol := [-6] } := by
  refine overlapsFirst_of (.inr ?_) (.inl ?_) (.inl ?_) <;> decide

/-! ### Counterexample -/

/-- One channel, at 1. -/
def narrow : Obj Nat Int Int where
  blt := [0]
  uvw := [0]
  lst := [0]
  pc := [0]
  freq := [1]
  spw := [0]
  width := [1]
  spws := [0]
  pol := [-5]
  data _ _ _ := 10
  flag _ _ _ := false
  nsample _ _ _ := 1

/-- Another time, channels at 0 and 1. -/
def wide : Obj Nat Int Int where
  blt := [1]
  uvw := [0]
  lst := [0]
  pc := [0]
  freq := [0, 1]
  spw := [0, 0]
  width := [1, 1]
  spws := [0]
  pol := [-5]
  data _ j _ := 20 + j
  flag _ _ _ := false
  nsample _ _ _ := 1

/-- The sum can exchange the visibilities of two frequencies of the other object: here the other object has 20 at frequency 0
and 21 at frequency 1, the sum has 21 at frequency 0 and 20 at frequency 1. No cell is shared. -/
theorem add_keeps_other_counterexample : Valid narrow ∧ Valid wide ∧ ¬Shares narrow wide ∧
    At wide wide.data 1 (0, 0) (-5) 20 ∧ At wide wide.data 1 (0, 1) (-5) 21 ∧
    ∃ r, addI narrow wide = .ok r ∧ At r r.data 1 (0, 0) (-5) 21 ∧ At r r.data 1 (0, 1) (-5) 20 := by
  refine ⟨?_, ?_, ?_, ⟨0, 0, 0, by decide, by decide, by decide, by decide⟩, ⟨0, 1, 0, by decide, by decide, by decide, by decide⟩, ?_⟩
  · refine ⟨by decide, by decide, by decide, by decide, by decide, ?_, by decide, by decide, by decide⟩
    intro w; simp [narrow]
  · refine ⟨by decide, by decide, by decide, by decide, by decide, ?_, by decide, by decide, by decide⟩
    intro w; simp [wide]
  · rintro ⟨x, c, z, ⟨h1, -⟩, ⟨h2, -⟩⟩
    simp [narrow] at h1
    simp [wide] at h2
    omega
  · have h : accepted (addI narrow wide) (fun r => decide (r.blt[1]? = some 1 ∧ r.chan[1]? = some (0, 0) ∧ r.chan[0]? = some (0, 1) ∧
      r.pol[0]? = some (-5) ∧ r.data 1 1 0 = 21 ∧ r.data 1 0 0 = 20)) = true := by decide +kernel
    obtain ⟨r, h1, h2⟩ := accepted_ok h
    simp only [decide_eq_true_eq] at h2
    obtain ⟨a, b, c, d, e, f⟩ := h2
    exact ⟨r, h1, ⟨1, 1, 0, a, b, d, e⟩, ⟨1, 0, 0, a, c, d, f⟩⟩

/-- The rows of the sum need not be sorted: the first object has rows 7, 3, the second 3, 7, 5; the sum has 7, 5, 3. -/
theorem add_rows_sorted_counterexample : Valid one ∧ Valid two ∧ (∃ x ∈ two.blt, x ∉ one.blt) ∧
    ∃ r, addI one two = .ok r ∧ ¬r.blt.Pairwise (· ≤ ·) := by
  obtain ⟨r, h, hb, -⟩ := one_two_ok
  exact ⟨one_valid, two_valid, ⟨5, by decide, by decide⟩, r, h, by rw [hb]; decide⟩

/-- Rows 3 and 7 come in the same order in both. -/
example : ∃ r, addI { one with blt := [3, 7] } two = .ok r ∧ r.blt.Pairwise (· ≤ ·) := by
  have hv : Valid { one with blt := [3, 7] } := by
    obtain ⟨a, b, c, d, e, f, g, h, i⟩ := one_valid
    exact ⟨a, b, c, d, e, f, by decide, h, i⟩
  have h : accepted (addI { one with blt := [3, 7] } two) (fun _ => true) = true := by decide +kernel
  obtain ⟨r, hr, -⟩ := accepted_ok h
  exact ⟨r, hr, add_rows_sorted_partial hv two_valid hr ⟨5, by decide, by decide⟩ (by decide)⟩

end Verif.Add
