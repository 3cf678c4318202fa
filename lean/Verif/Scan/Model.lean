import Mathlib.Data.List.Sort
import Verif.Np

/-!
# Scan numbers

Model of `UVData._set_scan_numbers` (`src/pyuvdata/uvdata/uvdata.py` 650-683), which numbers the scans of an object before it is
written to a measurement set (`src/pyuvdata/uvdata/ms.py` `write_ms`) or has other scans given to it.

`ndimage.label` and `find_objects` are modelled by what they give for one axis: a slice for each longest run of `True`.
-/

namespace Verif.Scan

/-- First positions of runs. -/
def starts (m : List Bool) : List Nat :=
  (List.range m.length).filter (fun i => m[i]? == some true && (i == 0 || m[i - 1]? != some true))

/-- `find_objects(label(m)[0])`: a slice for each run. -/
def runs (m : List Bool) : List (Nat × Nat) := (starts m).map (fun i => (i, i + ((m.drop i).takeWhile id).length))

/-- 668-671, in the order of the catalog. -/
def slices (cat : List Int) (ids : List Int) : List (Nat × Nat) := cat.flatMap (fun c => runs (ids.map (fun x => x == c)))

/-- 675: `sorted` by starts, which is stable. -/
def ordered (cat ids : List Int) : List (Nat × Nat) := (slices cat ids).insertionSort (fun a b => a.1 ≤ b.1)

/-- 679-681: what is assigned to a row last. -/
def numAt (sl : List (Nat × Nat)) (r : Nat) : Nat :=
  sl.zipIdx.foldl (fun acc x => if x.1.1 ≤ r ∧ r < x.1.2 then x.2 + 1 else acc) 0

/-- `_set_scan_numbers`. -/
def setScans (override : Bool) (old : Option (List Nat)) (cat ids : List Int) : Option (List Nat) :=
  if old.isNone || override then some ((List.range ids.length).map (numAt (ordered cat ids))) else old

end Verif.Scan
