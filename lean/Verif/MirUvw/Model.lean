import Mathlib.Algebra.Field.Defs
import Mathlib.Data.List.Sort

/-!
# Baseline coordinates of old MIR files

Model of the part of `MirParser._make_v3_compliant` that turns baseline coordinates in wavelengths into meters
(mir_parser.py 4206–4249).

* `dist` of a row is the distance of its antennas (lines 4221–4230), `meas` the length of its coordinates (line 4231), which is
  calculated with any function `len`.
* Arithmetic is exact.  A factor from a length of zero is `none`: if the distance is zero too, it is NaN, and so is the median; others
  (infinite ones) are not modelled further.
-/
set_option linter.unusedSectionVars false

namespace Verif.MirUvw

variable {K : Type} [Field K] [LinearOrder K]

/-- A row of `bl_data`. -/
structure Row (K : Type) where
  rx : Nat
  sb : Nat
  u : K
  v : K
  w : K
  dist : K

/-- A row with the length of its coordinates before they are changed; `none` is NaN. -/
structure Cell (K : Type) where
  rx : Nat
  sb : Nat
  u : Option K
  v : Option K
  w : Option K
  dist : K
  meas : K

/-- Line 4231. -/
def measure (len : K → K → K → K) (r : Row K) : Cell K :=
  ⟨r.rx, r.sb, some r.u, some r.v, some r.w, r.dist, len r.u r.v r.w⟩

/-- `np.median`: the mean of the two values in the middle, which are the same one for odd lengths. -/
def median (l : List K) : K :=
  let s := l.insertionSort (· ≤ ·)
  ((s[(s.length - 1) / 2]?).getD 0 + (s[s.length / 2]?).getD 0) / 2

/-- Line 4240. -/
def inGroup (g : Nat × Nat) (r : Cell K) : Bool := decide (r.rx = g.1) && decide (r.sb = g.2)

/-- Line 4242. -/
def factor (g : Nat × Nat) (rows : List (Cell K)) : Option K :=
  let l := rows.filter (inGroup g)
  if l.any fun r => decide (r.meas = 0) then none else some (median (l.map fun r => r.dist / r.meas))

def times : Option K → Option K → Option K
  | some a, some b => some (a * b)
  | _, _ => none

/-- Lines 4243–4245 for one row. -/
def scaled (f : Option K) (r : Cell K) : Cell K := { r with u := times r.u f, v := times r.v f, w := times r.w f }

/-- Lines 4240–4245. -/
def scale (rows : List (Cell K)) (g : Nat × Nat) : List (Cell K) :=
  if rows.any (inGroup g) then rows.map fun r => if inGroup g r then scaled (factor g rows) r else r else rows

/-- Lines 4206–4249; `none` is an AssertionError (lines 4211–4212). -/
def convert (len : K → K → K → K) (rows : List (Row K)) : Option (List (Cell K)) :=
  if rows.all fun r => decide (r.sb = 0 ∨ r.sb = 1) && decide (r.rx = 0 ∨ r.rx = 1) then
    some ([(0, 0), (0, 1), (1, 0), (1, 1)].foldl scale (rows.map (measure len)))
  else none

end Verif.MirUvw
