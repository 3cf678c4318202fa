import Verif.AntLike.Props

namespace Verif.AntLike.Examples
open Verif.Np Verif.FreqSort Verif.AntLike
open Verif.Pol (Str)

/-- A way to sort. -/
def sortIdx (l : List Int) : List Nat := (List.range l.length).insertionSort (fun i j => l.getD i 0 ≤ l.getD j 0)

theorem sortIdx_sorts (l : List Int) : IsArgsort l (sortIdx l) := by
  refine ⟨List.perm_insertionSort _ _, ?_⟩
  have : Std.Total (fun i j : Nat => l.getD i 0 ≤ l.getD j 0) := ⟨fun i j => le_total _ _⟩
  have : IsTrans Nat (fun i j : Nat => l.getD i 0 ≤ l.getD j 0) := ⟨fun i j k => le_trans⟩
  refine (List.pairwise_insertionSort (fun i j : Nat => l.getD i 0 ≤ l.getD j 0) (List.range l.length)).imp ?_
  intro i j h x y hx hy
  rw [List.getD_eq_getElem?_getD, List.getD_eq_getElem?_getD, hx, hy] at h
  exact h

def srt : Argsort Int := ⟨sortIdx, sortIdx_sorts⟩

def tel : Tel Nat := ⟨some [7, 3, 5], some [['g'], ['c'], ['e']], some [70, 30, 50]⟩
def other : Tel Nat := ⟨some [5, 7, 3], none, none⟩

example : Good tel [7, 3, 5] := by
  refine ⟨rfl, by decide, ?_, ?_⟩ <;> (intro l hl; cases hl; rfl)

def out (x : Except Err (Tel Nat)) : Option (Option (List Int) × Option (List Nat)) :=
  match x with
  | .ok t => some (t.nums, t.pos)
  | .error _ => none

def outNames (x : Except Err (Tel Nat)) : Option (List Str) :=
  match x with
  | .ok t => t.names
  | .error _ => none

example : out (sortLike srt tel other) = some (some [5, 7, 3], some [50, 70, 30]) := by decide +kernel
example : outNames (sortLike srt tel other) = some [['e'], ['g'], ['c']] := by decide +kernel
example : out (sortLike srt tel { other with nums := some [5, 7, 4] }) = some (some [7, 3, 5], some [70, 30, 50]) := by
  decide +kernel

/-- An object whose antennas are all in the other one is refused. -/
theorem subset_counterexample : ∃ t u : Tel Nat, t.nums = some [7, 3] ∧ u.nums = some [3, 5, 7] ∧
    out (sortLike srt t u) = none := ⟨⟨some [7, 3], none, none⟩, ⟨some [3, 5, 7], none, none⟩, rfl, rfl, by decide +kernel⟩

/-- Large antenna numbers are regarded as equal if they are close, and the antennas stay in the other order. -/
theorem large_counterexample : ∃ t u : Tel Nat, t.nums = some [100001, 100000] ∧ u.nums = some [100000, 100001] ∧
    out (sortLike srt t u) = some (some [100001, 100000], some [1, 0]) :=
  ⟨⟨some [100001, 100000], none, some [1, 0]⟩, ⟨some [100000, 100001], none, none⟩, rfl, rfl, by decide +kernel⟩

end Verif.AntLike.Examples
