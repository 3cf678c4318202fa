import Verif.FreqSort.Props
import Verif.Blt.Lemmas

/-! A concrete argsort, and cases in which the hypotheses of the theorems hold. -/
namespace Verif.FreqSort
open Verif.Np Verif.Blt

/-- A stable argsort: one admissible `np.argsort`. -/
def stable (α : Type) [LinearOrder α] : Argsort α where
  run l := (List.range l.length).insertionSort (fun i j => entryLe l[i]? l[j]? = true)
  sorts l := by
    refine ⟨List.perm_insertionSort _ _, ?_⟩
    have : IsTrans Nat (fun i j => entryLe l[i]? l[j]? = true) := ⟨fun _ _ _ => entryLe_trans⟩
    have : Std.Total (fun i j : Nat => entryLe l[i]? l[j]? = true) := ⟨fun _ _ => entryLe_total _ _⟩
    refine (List.pairwise_insertionSort _ _).imp ?_
    intro i j h x y hx hy
    simp only [hx, hy, entryLe] at h
    simpa using h

example : Valid [(5 : ℚ), 1, 4, 2, 9] [7, 3] [7, 3, 7, 3, 7] :=
  ⟨by decide, by decide, by decide, by decide, by decide⟩

example : sortFreq (stable Int) (stable ℚ) [(5 : ℚ), 1, 4, 2, 9] [7, 3] [7, 3, 7, 3, 7] (.str "number".toList)
    (.str "-freq".toList) none = .ok (some [3, 1, 4, 0, 2]) := by decide +kernel

example : sortFreq (stable Int) (stable ℚ) [(5 : ℚ), 1, 4, 2, 9] [7, 3] [7, 3, 7, 3, 7] .none
    (.str "freq".toList) (some [7]) = .ok (some [2, 1, 0, 3, 4]) := by decide +kernel

example : sortFreq (stable Int) (stable ℚ) [(5 : ℚ), 1, 4, 2, 9] [7, 3] [7, 3, 7, 3, 7] (.idx [1, 0]) .none none =
    .ok (some [1, 3, 0, 2, 4]) := by decide +kernel

end Verif.FreqSort
