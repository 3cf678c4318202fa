import Verif.FileNames.Props

/-! # Names of the files of combined objects: cases that meet the hypotheses -/

namespace Verif.FileNames

example : combineAll (some [5, 2]) [none, some [7, 2], some [1]] = some [1, 2, 5, 7] := by decide +kernel
example : combineAll (none : Option (List Nat)) [none, some [7, 2], none] = some [7, 2] := by decide +kernel

example : NamesOf [some [5, 2], none, some [7, 2]] (some [2, 5, 7]) := all_names (some [5, 2]) [none, some [7, 2]]
example : Ascending [2, 5, 7] :=
  two_ascending (a := [5, 2]) (b := [7, 2]) (u := []) (v := [none]) (w := []) (some [5, 2]) [none, some [7, 2]] rfl
    (by decide +kernel)
example : combineAll (some [2, 5]) [none, some [1]] = combineAll none [some [1], some [2, 5]] :=
  order_irrelevant (by decide) (by simp [Ascending])
example : combine (combine (some [2, 5]) (some [1])) (some [3]) = combine (some [2, 5]) (combine (some [1]) (some [3])) :=
  groups _ _ _ (by simp [Ascending]) (by simp [Ascending]) (by simp [Ascending])
example := same_names (x := [2, 5]) (by simp [Ascending])
example : combineAll none [some [7, 2], none] = some [7, 2] := one_kept [7, 2] 1 1 _ _ rfl

end Verif.FileNames
