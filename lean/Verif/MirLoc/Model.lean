import Mathlib.Algebra.Field.Defs
import Mathlib.Algebra.Module.Defs
import Mathlib.Algebra.Order.Group.Abs
import Mathlib.Algebra.Order.Ring.Defs
import Mathlib.Algebra.BigOperators.Group.List.Basic

/-!
# Where the telescope and antennas of Miriad files are

Model of `Miriad._load_telescope_coords` (miriad.py 254–358), of the parts of `Miriad._load_antpos` (lines 375–605) about
locations and positions, and of how they are called on reading (lines 707, 710 and 1135), for files that other programs have written (those without `antnums`; files of pyuvdata are in
`Verif.Miriad.HeadModel`, C171).

* Positions are elements of any space; that `antpos` is in nanoseconds is left out.
* What astropy calculates (geodetic coordinates) and the rotation of lines 423 are arbitrary functions.
* Arithmetic is exact.  The mean of no positions is NaN: `none`.
-/
set_option linter.unusedSectionVars false

namespace Verif.MirLoc

variable {K P : Type} [Field K] [LinearOrder K] [AddCommGroup P] [Module K P]

structure Env (K P : Type) where
  /-- `ECEF_from_rotECEF` at a longitude -/
  rot : K → P → P
  /-- the length of a vector -/
  len : P → K
  /-- `EarthLocation.from_geodetic`: latitude, longitude, height -/
  geo : K → K → K → P
  lat : P → K
  lon : P → K
  alt : P → K
  pi : K
  /-- lines 413 and coordinates.py 40 -/
  low : K
  high : K
  /-- line 450 -/
  tol : K

structure File (K P : Type) where
  lat : K
  lon : K
  alt : Option K
  /-- where the telescope is known to be: latitude, longitude, height (line 289) -/
  known : Option (K × K × K)
  antpos : Option (List P)
  /-- antennas that have visibilities -/
  seen : List Nat

structure Got (P : Type) where
  loc : P
  nums : List Nat
  pos : Option (List P)

/-- Lines 274–277. -/
def wrapped (env : Env K P) (lon : K) : K := if env.pi < lon then lon - 2 * env.pi else lon

/-- `_load_telescope_coords` (lines 271–358). -/
def locate (env : Env K P) (f : File K P) (correct : Bool) : Option P :=
  match f.alt with
  | some h => some (env.geo f.lat (wrapped env f.lon) h)
  | none =>
    match f.known with
    | some (la, lo, h) => if correct then some (env.geo la lo h) else some (env.geo f.lat (wrapped env f.lon) h)
    | none => none

/-- Line 411. -/
def good (env : Env K P) (pos : List P) : List P := pos.filter fun p => decide (0 < env.len p)

/-- Lines 410–416. -/
def absolute (env : Env K P) (pos : List P) : Bool :=
  let g := good env pos
  let m := (g.map env.len).sum / (g.length : K)
  decide (g ≠ []) && (decide (env.low < m) && decide (m < env.high))

/-- `np.mean` of the good positions, turned (line 436). -/
def meanPos (env : Env K P) (f : File K P) (pos : List P) : Option P :=
  let g := (good env pos).map (env.rot f.lon)
  if g = [] then none else some ((1 / (g.length : K)) • g.sum)

/-- `check_surface_based_positions` of a location (coordinates.py 530–554); comparisons with NaN are false. -/
def surface (env : Env K P) : Option P → Bool
  | none => true
  | some p => !decide (env.len p < env.low) && !decide (env.high < env.len p)

/-- Lines 446–454. -/
def close (env : Env K P) (f : File K P) : Option P → Bool
  | none => false
  | some p => decide (|env.lat p - f.lat| ≤ env.tol) && decide (|env.lon p - f.lon| ≤ env.tol)

/-- The height of a mean that is close (lines 449 and 469). -/
def meanAlt (env : Env K P) : Option P → K
  | none => 0
  | some p => env.alt p

/-- Lines 434–531: the location if it is not known, and whether it is subtracted. -/
def guess (env : Env K P) (f : File K P) (pos : List P) : P × Bool :=
  let m := meanPos env f pos
  if surface env m then
    if close env f m then (env.geo f.lat f.lon (meanAlt env m), true)
    else (env.geo f.lat f.lon 0, true)
  else (env.geo f.lat f.lon 0, absolute env pos)

/-- Lines 423–531: location and relative positions. -/
def relative (env : Env K P) (f : File K P) (loc : Option P) (pos : List P) : P × List P :=
  let ecef := pos.map (env.rot f.lon)
  match loc with
  | some l =>
    if absolute env pos then (l, pos.map fun p => if env.len p = 0 then env.rot f.lon p else env.rot f.lon p - l)
    else (l, ecef)
  | none =>
    let g := guess env f pos
    if g.2 then (g.1, ecef.map (· - g.1)) else (g.1, ecef)

/-- Lines 553–562: antennas with positions and those with visibilities, as a set. -/
def used (env : Env K P) (pos : List P) (seen : List Nat) : List Nat :=
  ((List.range pos.length).filter (fun i => match pos[i]? with | some p => decide (0 < env.len p) | none => false) ++ seen).dedup

/-- Lines 571–581: the position of one antenna; `none` is an IndexError. -/
def posOf (env : Env K P) (pos rel : List P) (n : Nat) : Option P :=
  match pos[n]? with
  | none => none
  | some p => if env.len p = 0 then some 0 else rel[n]?

/-- The location after the header has been read (lines 706–710): `_load_telescope_coords`, then `_load_antpos`. -/
def header (env : Env K P) (f : File K P) (correct : Bool) : P :=
  let loc := locate env f correct
  match f.antpos with
  | some pos => (relative env f loc pos).1
  | none => loc.getD (env.geo f.lat f.lon 0)

/-- Location and antennas after `_load_antpos` has been called again with the antennas of the visibilities (line 1135);
`order` is the order in which a set is given out. -/
def load (env : Env K P) (order : List Nat → List Nat) (f : File K P) (correct : Bool) : Option (Got P) :=
  let loc := header env f correct
  match f.antpos with
  | some pos =>
    let lr := relative env f (some loc) pos
    let nums := order (used env pos f.seen)
    match nums.mapM (posOf env pos lr.2) with
    | none => none
    | some out => some ⟨lr.1, nums, some out⟩
  | none => some ⟨loc, f.seen, none⟩

end Verif.MirLoc
