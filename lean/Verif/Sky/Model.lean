import Mathlib.Data.List.Sort
import Mathlib.Algebra.Order.Floor.Ring
import Mathlib.Analysis.SpecialFunctions.Trigonometric.Basic
import Verif.Phase.Model

/-!
# Positions on the sky, row by row

Model of parts of `src/pyuvdata/utils/phasing.py`: `old_uvw_calc` and `undo_old_uvw_calc` (lines 24-92, with
the loops of `phasing.pyx`), `polar2_to_cart3` and `cart3_to_polar2` (95-184), `calc_frame_pos_angle`
(1572-1702), `interpolate_ephem` (1911-2038) and `calc_app_coords` (2041-2255).

Numbers are real numbers.  What astropy and ERFA compute for one position and one time is an
arbitrary function; the two functions `erfa.pas` and `erfa.ae2hd`, which are pure trigonometry, are written
out.  The cubic splines of scipy are an arbitrary function.  Arrays are lists.
-/

namespace Verif.Sky

open Verif.Coord (V3 atan2)
open Verif.Phasing (pick)
open Verif.Phase (maskSet maskFill Epoch)
open Verif.PhaseCat (Entry Val unprojected driftscan sidereal ephem)
open Verif.Pol (Str)

noncomputable section

/-- `np.mod(x, 2 * np.pi)` -/
def mod2pi (x : ℝ) : ℝ := x - 2 * Real.pi * (⌊x / (2 * Real.pi)⌋ : ℝ)

/-! ## Polar and Cartesian coordinates -/

/-- `polar2_to_cart3` (lines 131-138) at one point. -/
def polar2 (lon lat : ℝ) : V3 :=
  ⟨Real.cos lon * Real.cos lat, Real.sin lon * Real.cos lat, Real.sin lat⟩

/-- `cart3_to_polar2` (lines 174-181) at one point. -/
def cart3 (v : V3) : ℝ × ℝ := (mod2pi (atan2 v.y v.x), atan2 v.z (Real.sqrt (v.x ^ 2 + v.y ^ 2)))

/-- `_old_uvw_calc` (phasing.pyx lines 41-54) for one baseline. -/
def oldUvw (ra dec : ℝ) (v : V3) : V3 :=
  ⟨-Real.sin ra * v.x + Real.cos ra * v.y,
   -Real.sin dec * Real.cos ra * v.x - Real.sin dec * Real.sin ra * v.y + Real.cos dec * v.z,
   Real.cos dec * Real.cos ra * v.x + Real.cos dec * Real.sin ra * v.y + Real.sin dec * v.z⟩

/-- `_undo_old_uvw_calc` (phasing.pyx lines 82-97) for one baseline. -/
def undoOldUvw (ra dec : ℝ) (v : V3) : V3 :=
  ⟨-Real.sin ra * v.x - Real.sin dec * Real.cos ra * v.y + Real.cos dec * Real.cos ra * v.z,
   Real.cos ra * v.x - Real.sin dec * Real.sin ra * v.y + Real.cos dec * Real.sin ra * v.z,
   Real.cos dec * v.y + Real.sin dec * v.z⟩

/-! ## Position angles of frames -/

inductive Err
  | offset | shape | assign | range | type
deriving DecidableEq

/-- `erfa.pas`: the position angle of the second point seen from the first. -/
def pas (a b : ℝ × ℝ) : ℝ :=
  atan2 (Real.sin (b.1 - a.1) * Real.cos b.2)
    (Real.sin b.2 * Real.cos a.2 - Real.cos b.2 * Real.sin a.2 * Real.cos (b.1 - a.1))

/-- `i` is in `np.unique(l, return_index=True)[1]`: the first place of its value. -/
def FirstAt (l : List ℝ) (i : Nat) : Prop := i < l.length ∧ ∀ j < i, l[j]? ≠ l[i]?

open Classical in
/-- `unique_mask` (lines 1641-1647): the sorted union of three sets of first places. -/
def uniqueMask (time ra dec : List ℝ) : List Nat :=
  (List.range ra.length).filter fun i => decide (FirstAt ra i ∨ FirstAt dec i ∨ FirstAt time i)

/-- `xs[m] = vals` in numpy: as many values as places, or one value. -/
def assign (m : List Bool) (xs vals : List ℝ) : Option (List ℝ) :=
  if vals.length = m.count true then some (maskSet m xs vals)
  else match vals with
    | [v] => some (maskFill m xs v)
    | _ => none

/-- `x[m] = g(x[m])` for an elementwise function. -/
def mapAt (m : List Bool) (g : ℝ → ℝ) (xs : List ℝ) : List ℝ :=
  List.zipWith (fun b x => if b then g x else x) m xs

open Classical in
/-- `x > y` for an array and a number. -/
def above (xs : List ℝ) (y : ℝ) : List Bool := xs.map fun x => decide (x > y)

/-- One entry of the arrays over `unique_mask` after line 1691. -/
structure Uniq where
  ra : ℝ
  dec : ℝ
  time : ℝ
  pa : ℝ

/-- Lines 1689-1691: `sid` is `calc_sidereal_coords` for one position. -/
def uniqs (sid : ℝ → ℝ → ℝ → ℝ × ℝ) (ra dec time dn up : List ℝ) : List Uniq :=
  ((ra.zip dec).zip (time.zip (dn.zip up))).map fun q =>
    ⟨q.1.1, q.1.2, q.2.1, -pas (sid q.2.1 q.1.1 q.2.2.1) (sid q.2.1 q.1.1 q.2.2.2)⟩

open Classical in
/-- Lines 1694-1700 for one row. -/
def backfill (us : List Uniq) (t r d : ℝ) : ℝ :=
  us.foldl (fun acc u => if u.ra = r ∧ u.dec = d ∧ u.time = t then u.pa else acc) 0

/-- `calc_frame_pos_angle` (lines 1631-1702).  `frame = none` stands for no frame and for "topo".
`up_ra`, `dn_ra` and `unique_ra` are one and the same array (line 1661). -/
def framePosAngle (sid : ℝ → ℝ → ℝ → ℝ × ℝ) (frame : Bool) (off : ℝ) (time ra dec : List ℝ) :
    Except Err (List ℝ) :=
  if frame = false then .ok (time.map fun _ => 0)
  else if ¬ 0 < off then .error .offset
  else if time.length ≠ ra.length ∨ dec.length ≠ ra.length then .error .shape
  else
    let um := uniqueMask time ra dec
    let uRa := um.map fun i => ra.getD i 0
    let uDec := um.map fun i => dec.getD i 0
    let uTime := um.map fun i => time.getD i 0
    let up := uDec.map (· + off)
    let dn := uDec.map (· - off)
    let north := above up (Real.pi / 2)
    let uRa := mapAt north (fun x => mod2pi (x + Real.pi)) uRa
    let up := mapAt north (fun x => Real.pi - x) up
    let south := above (dn.map (- ·)) (Real.pi / 2)
    match assign south uRa ((pick (above dn (Real.pi / 2)) uRa).map fun x => mod2pi (x + Real.pi)) with
    | none => .error .assign
    | some uRa =>
      let dn := mapAt south (fun x => Real.pi - x) dn
      let us := uniqs sid uRa uDec uTime dn up
      .ok (((time.zip ra).zip dec).map fun q => backfill us q.1.1 q.1.2 q.2)

/-! ## Ephemerides -/

/-- The straight line through two points. -/
def line (p q : ℝ × ℝ) (t : ℝ) : ℝ := (q.2 - p.2) / (q.1 - p.1) * (t - p.1) + p.2

open Classical in
/-- `interp1d(…, kind="linear")` on sorted points; outside of their range a `ValueError`. -/
def linear : List (ℝ × ℝ) → ℝ → Option ℝ
  | p :: q :: l, t => if p.1 ≤ t ∧ t ≤ q.1 then some (line p q t) else linear (q :: l) t
  | _, _ => none

open Classical in
/-- The points in the order of their times (`interp1d` sorts them). -/
def byTime (pts : List (ℝ × ℝ)) : List (ℝ × ℝ) := pts.insertionSort fun p q => p.1 ≤ q.1

open Classical in
/-- `interpolate_ephem` (lines 1966-2036) for one of the columns and one time; `cubic` is the spline.
Times that are in the ephemeris get the value there (`kind="nearest"`). -/
def interp (cubic : List (ℝ × ℝ) → ℝ → Option ℝ) (pts : List (ℝ × ℝ)) (t : ℝ) : Option ℝ :=
  match pts with
  | [p] => some p.2                                                       -- 1986-1992
  | pts =>
    match (byTime pts).find? fun p => decide (p.1 = t) with
    | some p => some p.2                                                  -- 1999-2016
    | none =>
      if pts.length > 3 then cubic (byTime pts) t else linear (byTime pts) t  -- 1994-1997, 2020-2036

/-! ## Apparent positions -/

/-- `erfa.ae2hd`: hour angle and declination of an azimuth and elevation. -/
def ae2hd (az el lat : ℝ) : ℝ × ℝ :=
  let x := -Real.cos az * Real.cos el * Real.sin lat + Real.sin el * Real.cos lat
  let y := -Real.sin az * Real.cos el
  let z := Real.cos az * Real.cos el * Real.cos lat + Real.sin el * Real.sin lat
  (atan2 y x, atan2 z (Real.sqrt (x ^ 2 + y ^ 2)))

/-- What depends on the telescope and on astropy. -/
structure Site where
  /-- `site_loc.lat.rad` -/
  lat : ℝ
  /-- `transform_sidereal_coords` and `transform_icrs_to_app` of one position of a source at one time -/
  toApp : Entry → ℝ × ℝ → ℝ → ℝ × ℝ
  /-- the cubic spline -/
  cubic : List (ℝ × ℝ) → ℝ → Option ℝ
  /-- `calc_sidereal_coords` for a frame and an epoch, at one time and position -/
  sid : Str → Epoch → ℝ → ℝ → ℝ → ℝ × ℝ
  /-- `offset_pos`, half a degree -/
  off : ℝ

def vals : Option Val → List ℝ
  | none => []
  | some (.scalar x) => [(x : ℝ)]
  | some (.vec l) => l.map fun x => (x : ℝ)

/-- Lines 2173-2243 for one time and the LST that goes with it. -/
def place (s : Site) (e : Entry) (t l : ℝ) : Except Err (ℝ × ℝ) :=
  if e.type = sidereal then
    match vals e.lon, vals e.lat with
    | [a], [b] => .ok (s.toApp e (a, b) t)
    | _, _ => .error .shape
  else if e.type = driftscan then
    match vals e.lon, vals e.lat with
    | [a], [b] => .ok (mod2pi ((ae2hd a b s.lat).1 + l), (ae2hd a b s.lat).2 + 0)
    | _, _ => .error .shape
  else if e.type = ephem then
    if (vals e.lon).length ≠ (vals e.times).length ∨ (vals e.lat).length ≠ (vals e.times).length then
      .error .shape
    else match interp s.cubic ((vals e.times).zip (vals e.lon)) t, interp s.cubic ((vals e.times).zip (vals e.lat)) t with
      | some a, some b => .ok (s.toApp e (a, b) t)
      | _, _ => .error .range
  else if e.type = unprojected then .ok (l, 0 + s.lat)
  else .error .type

/-- An exception in any element is an exception. -/
def sequence {α : Type} : List (Except Err α) → Except Err (List α)
  | [] => .ok []
  | .error e :: _ => .error e
  | .ok a :: l => match sequence l with
    | .error e => .error e
    | .ok as => .ok (a :: as)

open Classical in
/-- `unique_time_array` and `unique_lst` (lines 2165-2171): each time once, with the LST of the first row
that has it.  (In numpy they are in the order of time; nothing depends on the order.) -/
def uniqueTimes (time lst : List ℝ) : List (ℝ × ℝ) :=
  ((List.range time.length).filter fun i => decide (FirstAt time i)).map fun i => (time.getD i 0, lst.getD i 0)

open Classical in
/-- Lines 2247-2253 for one row. -/
def fillTime (us : List ((ℝ × ℝ) × (ℝ × ℝ))) (t : ℝ) : ℝ × ℝ :=
  us.foldl (fun acc u => if t = u.1.1 then u.2 else acc) (0, 0)

/-- `calc_app_coords` (lines 2162-2255) with given LSTs. -/
def appCoords (s : Site) (e : Entry) (time lst : List ℝ) : Except Err (List ℝ × List ℝ) :=
  if lst.length ≠ time.length then .error .shape
  else
    let us := uniqueTimes time lst
    match sequence (us.map fun u => place s e u.1 u.2) with
    | .error err => .error err
    | .ok ps =>
      .ok (time.map fun t => (fillTime (us.zip ps) t).1, time.map fun t => (fillTime (us.zip ps) t).2)

end

end Verif.Sky
