import Mathlib.Data.List.Sort
import Mathlib.Data.List.Dedup

/-!
# Names of the files of combined objects

Model of `utils.tools._combine_filenames` (tools.py 21–56) and of how it is called: `__add__` combines two objects
(uvdata.py 5762, uvcal.py 2856, uvbeam.py 2490, uvflag.py 1962), and `fast_concat` and `read` of a list of files combine one
with each of the others in turn (uvdata.py 6195–6197, uvcal.py 3883–3885).  Names are any ordered type.
-/
set_option linter.unusedSectionVars false

namespace Verif.FileNames

variable {N : Type} [LinearOrder N]

/-- `sorted(set(a).union(set(b)))`: a set is a list without repetition; `sorted` is a stable sort. -/
def sortedUnion (a b : List N) : List N := (a ++ b).dedup.insertionSort (· ≤ ·)

/-- `_combine_filenames` (lines 49–56). -/
def combine (a b : Option (List N)) : Option (List N) :=
  match a with
  | some x =>
    match b with
    | some y => some (sortedUnion x y)
    | none => some x
  | none => b

/-- `for obj in other: this.filename = _combine_filenames(this.filename, obj.filename)` (uvdata.py 6195–6197). -/
def combineAll (first : Option (List N)) (others : List (Option (List N))) : Option (List N) := others.foldl combine first

end Verif.FileNames
