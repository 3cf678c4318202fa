import Mathlib.Algebra.Order.Group.Defs
import Verif.Np

/-!
# Tracks of positions on the sky

Model of `uvw_track_generator` (`src/pyuvdata/utils/phasing.py` lines 2356-2564) and of the part of
`calc_app_coords` (2041-2255) that deals with several sidereal positions.

A position is one value (longitude and latitude are always given together).  What astropy and ERFA compute
for one position and one time is an arbitrary function of the epoch, the position and the time; the site is fixed.
Position angles and baseline coordinates are arbitrary functions of what they are computed from for one row
(`Verif.Sky` and `Verif.Phase` have these functions; LSTs are functions of times, `Verif.Lst`).  `None` for an
epoch is `none`.  Errors are `none`.  Scalars are arrays of one element (lines 2482-2494).  Not modelled: sources
that are not sidereal, and Moon locations.
-/

namespace Verif.Track

variable {C T A E P K : Type}

/-- `transform_sidereal_coords` (lines 865-880) and `transform_icrs_to_app` (1076-1081 and the elementwise
calculation): positions and times are matched if there are as many of both, or if one of them is single. -/
def broadcast (f : C → T → A) (cs : List C) (ts : List T) : Option (List A) :=
  match ts, cs with
  | [t], cs => some (cs.map fun c => f c t)
  | ts, [c] => some (ts.map fun t => f c t)
  | ts, cs => if cs.length = ts.length then some (List.zipWith f cs ts) else none

/-- `calc_app_coords` (lines 2165, 2173-2196 and 2247-2253): positions of unique times, then what is found for a
time is filled in for all rows of this time. -/
def appCoords [LinearOrder T] (f : C → T → A) (cs : List C) (times : List T) : Option (List A) :=
  match broadcast f cs (Np.unique times) with
  | none => none
  | some us => times.mapM fun t => us[(Np.unique times).idxOf t]?

/-- Baseline coordinates. -/
structure Uvw (K : Type) where
  u : K
  v : K
  w : K
deriving DecidableEq

/-- `uvws[mask, :] *= -1.0` (lines 2553-2555) for one row. -/
def flip [LinearOrder K] [AddCommGroup K] (x : Uvw K) : Uvw K :=
  if x.u < 0 ∨ (x.u = 0 ∧ x.v < 0) then ⟨-x.u, -x.v, -x.w⟩ else x

/-- One row of the result (lines 2557-2564). -/
structure Row (T A P K : Type) where
  ants : Nat × Nat
  time : T
  app : A
  pa : P
  uvw : Uvw K
deriving DecidableEq

/-- The functions of one row. -/
structure Sky (C T A E P K : Type) where
  /-- `calc_app_coords` for an epoch, a position and a time -/
  app : Option E → C → T → A
  /-- `calc_frame_pos_angle` for an epoch, a time and an apparent position -/
  pa : Option E → T → A → P
  /-- `calc_uvw` for a pair of antennas, a time, an apparent position and a position angle -/
  uvw : Nat × Nat → T → A → P → Uvw K

/-- Lines 2528-2564 for one row. -/
def mkRow [LinearOrder K] [AddCommGroup K] (s : Sky C T A E P K) (force : Bool) (epoch : Option E)
    (ants : Nat × Nat) (t : T) (a : A) : Row T A P K :=
  let pa := s.pa epoch t a
  let x := s.uvw ants t a pa
  ⟨ants, t, a, pa, if force then flip x else x⟩

/-- Lines 2517-2564: all rows, with the antennas and times of rows.  `coord_epoch` is not handed to
`calc_app_coords` (lines 2518-2526). -/
def rowsOf [LinearOrder T] [LinearOrder K] [AddCommGroup K] (s : Sky C T A E P K) (force : Bool)
    (epoch : Option E) (cs : List C) (times : List T) (ants : List (Nat × Nat)) : Option (List (Row T A P K)) :=
  match appCoords (s.app none) cs times with
  | none => none
  | some as => some ((ants.zip (times.zip as)).map fun r => mkRow s force epoch r.1 r.2.1 r.2.2)

/-- The pairs of antennas (lines 2499-2505). -/
def pairs (n : Nat) : List (Nat × Nat) :=
  (List.range n).flatMap fun i => (List.range' (i + 1) (n - (i + 1))).map fun j => (i + 1, j + 1)

/-- `np.tile` (lines 2509-2510) -/
def tile {α : Type} (l : List α) (n : Nat) : List α := (List.replicate n l).flatten

/-- `np.repeat` (lines 2511-2515) -/
def rep {α : Type} (l : List α) (n : Nat) : List α := l.flatMap fun x => List.replicate n x

/-- Lines 2498-2515, then the rest: `n` antenna positions and neither numbers nor pairs of antennas are given. -/
def track [LinearOrder T] [LinearOrder K] [AddCommGroup K] (s : Sky C T A E P K) (force : Bool)
    (epoch : Option E) (cs : List C) (times : List T) (n : Nat) : Option (List (Row T A P K)) :=
  let nb := (pairs n).length
  rowsOf s force epoch (if cs.length = times.length then rep cs nb else cs) (rep times nb)
    (tile (pairs n) times.length)

end Verif.Track
