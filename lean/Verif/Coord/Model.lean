import Mathlib.Analysis.SpecialFunctions.Complex.Arg
import Mathlib.Analysis.SpecialFunctions.Trigonometric.Basic
import Mathlib.Analysis.SpecialFunctions.Sqrt

/-!
# Coordinate transformations

Model of `src/pyuvdata/utils/coordinates.py` (lines 39-481) and of the loops it calls in
`src/pyuvdata/utils/coordinates.pyx` (lines 19-226).  Floating-point numbers are real numbers
here: rounding is not modelled.  `atan2` of the C library is the argument of a complex number
(no signed zeros), division by zero gives zero where C gives an infinity or a NaN.
-/

namespace Verif.Coord

noncomputable section

/-- One row of an `(Npts, 3)` array. -/
@[ext] structure V3 where
  x : ℝ
  y : ℝ
  z : ℝ

/-- `atan2(y, x)` of the C library (coordinates.pyx line 14). -/
def atan2 (y x : ℝ) : ℝ := Complex.arg ⟨x, y⟩

/-- `Ellipsoid` (coordinates.pyx lines 19-28): the two stored radii. -/
structure Ellipsoid where
  gpsA : ℝ
  gpsB : ℝ

/-- `self.b_div_a2` (coordinates.pyx line 26). -/
def Ellipsoid.bDivA2 (e : Ellipsoid) : ℝ := (e.gpsB / e.gpsA) ^ 2

/-- `self.e_squared` (coordinates.pyx line 27). -/
def Ellipsoid.eSquared (e : Ellipsoid) : ℝ := 1 - e.bDivA2

/-- `self.e_prime_squared` (coordinates.pyx line 28). -/
def Ellipsoid.ePrimeSquared (e : Ellipsoid) : ℝ := e.bDivA2⁻¹ - 1

/-- `Body.Earth` (coordinates.pyx line 33). -/
def earth : Ellipsoid := ⟨6378137, 6356752.31424518⟩

/-- Result row of `_lla_from_xyz`. -/
@[ext] structure LLA where
  lat : ℝ
  lon : ℝ
  alt : ℝ

/-- One pass of the loop of `_lla_from_xyz` (coordinates.pyx lines 80-91). -/
def llaFromXyz1 (e : Ellipsoid) (p : V3) : LLA :=
  let gpsP := Real.sqrt (p.x ^ 2 + p.y ^ 2)
  let gpsTheta := atan2 (p.z * e.gpsA) (gpsP * e.gpsB)
  let lat := atan2 (p.z + e.ePrimeSquared * e.gpsB * Real.sin gpsTheta ^ 3)
    (gpsP - e.eSquared * e.gpsA * Real.cos gpsTheta ^ 3)
  { lat := lat
    lon := atan2 p.y p.x
    alt := gpsP / Real.cos lat - e.gpsA / Real.sqrt (1 - e.eSquared * Real.sin lat ^ 2) }

/-- One pass of the loop of `_xyz_from_latlonalt` (coordinates.pyx lines 114-126). -/
def xyzFromLla1 (e : Ellipsoid) (q : LLA) : V3 :=
  let gpsN := e.gpsA / Real.sqrt (1 - e.eSquared * Real.sin q.lat ^ 2)
  { x := (gpsN + q.alt) * Real.cos q.lat * Real.cos q.lon
    y := (gpsN + q.alt) * Real.cos q.lat * Real.sin q.lon
    z := (e.bDivA2 * gpsN + q.alt) * Real.sin q.lat }

/-- One pass of the loop of `_ENU_from_ECEF` (coordinates.pyx lines 150-176). -/
def enuFromEcef1 (e : Ellipsoid) (c : LLA) (p : V3) : V3 :=
  let centre := xyzFromLla1 e c
  let ux := p.x - centre.x
  let uy := p.y - centre.y
  let uz := p.z - centre.z
  { x := -Real.sin c.lon * ux + Real.cos c.lon * uy
    y := -Real.sin c.lat * Real.cos c.lon * ux - Real.sin c.lat * Real.sin c.lon * uy
      + Real.cos c.lat * uz
    z := Real.cos c.lat * Real.cos c.lon * ux + Real.cos c.lat * Real.sin c.lon * uy
      + Real.sin c.lat * uz }

/-- One pass of the loop of `_ECEF_from_ENU` (coordinates.pyx lines 203-224). -/
def ecefFromEnu1 (e : Ellipsoid) (c : LLA) (q : V3) : V3 :=
  let centre := xyzFromLla1 e c
  { x := -Real.sin c.lat * Real.cos c.lon * q.y - Real.sin c.lon * q.x
      + Real.cos c.lat * Real.cos c.lon * q.z + centre.x
    y := -Real.sin c.lat * Real.sin c.lon * q.y + Real.cos c.lon * q.x
      + Real.cos c.lat * Real.sin c.lon * q.z + centre.y
    z := Real.cos c.lat * q.y + Real.sin c.lat * q.z + centre.z }

/-- `frame.upper()`: the two frames with a branch of their own, and every other string. -/
inductive Frame
  | itrs
  | mcmf
  | other
deriving DecidableEq

/-- The exceptions of this file. -/
inductive Err
  /-- `ValueError: Need to install lunarsky`. -/
  | noMoon
  /-- `ValueError: No … transform defined for frame`, or `Cannot check acceptability`. -/
  | badFrame
  /-- `KeyError` of `selenoids[ellipsoid]`. -/
  | badEllipsoid
  /-- `ValueError`: magnitudes not on the order of the radius of the body. -/
  | badRadius
  /-- `ValueError: latitude, longitude and altitude must all have the same length`. -/
  | badLength
  /-- `ValueError: Either center_loc or all of latitude, longitude and altitude`. -/
  | noCentre
deriving DecidableEq

/-- What the module knows of the moon: `none` when `lunarsky` is not installed, else the
`selenoids` dictionary (coordinates.py lines 29-36, pyx lines 35-56); the numbers are those of
`lunarsky` and stay open here.  The default name is `"SPHERE"` (lines 82, 174, 329). -/
structure Moon where
  names : List (String × Ellipsoid)

/-- `selenoids[ellipsoid].value`, with the default name when no name was given. -/
def Moon.get (m : Moon) (name : Option String) : Except Err Ellipsoid :=
  match m.names.lookup (name.getD "SPHERE") with
  | some e => .ok e
  | none => .error .badEllipsoid

/-- The choice of the ellipsoid by frame (coordinates.py lines 108-115, 168-182, 363-367). -/
def bodyOf (moon : Option Moon) (frame : Frame) (ellipsoid : Option String) :
    Except Err Ellipsoid :=
  match frame, moon with
  | .itrs, _ => .ok earth
  | .mcmf, some m => m.get ellipsoid
  | .mcmf, none => .error .noMoon
  | .other, _ => .error .badFrame

/-- `np.linalg.norm(xyz, axis=0)` at one point. -/
def norm (p : V3) : ℝ := Real.sqrt (p.x ^ 2 + p.y ^ 2 + p.z ^ 2)

/-- `accept_bounds` and `sensible_radius_range` (coordinates.py lines 77-82, 322-331). -/
def radiusRange : Frame → ℝ × ℝ
  | .itrs => (6.35e6, 6.39e6)
  | .mcmf => (1.71e6, 1.75e6)
  | .other => (0, 0)

open Classical in
/-- `LatLonAlt_from_XYZ` (coordinates.py lines 45-119) on an `(Npts, 3)` array. -/
def latLonAltFromXYZ (moon : Option Moon) (frame : Frame) (ellipsoid : Option String)
    (check : Bool) (xyz : List V3) : Except Err (List LLA) :=
  if frame = .mcmf ∧ moon.isNone then .error .noMoon
  else if check = true ∧ frame = .other then .error .badFrame
  else if check = true ∧
      ¬ ∀ p ∈ xyz, (radiusRange frame).1 ≤ norm p ∧ norm p ≤ (radiusRange frame).2 then
    .error .badRadius
  else (bodyOf moon frame ellipsoid).map fun e => xyz.map (llaFromXyz1 e)

/-- The three columns handed to `_xyz_from_latlonalt`, zipped. -/
def zipLla : List ℝ → List ℝ → List ℝ → List LLA
  | a :: as, b :: bs, c :: cs => ⟨a, b, c⟩ :: zipLla as bs cs
  | _, _, _ => []

/-- `XYZ_from_LatLonAlt` (coordinates.py lines 122-188). -/
def xyzFromLatLonAlt (moon : Option Moon) (frame : Frame) (ellipsoid : Option String)
    (lat lon alt : List ℝ) : Except Err (List V3) :=
  if frame = .mcmf ∧ moon.isNone then .error .noMoon
  else if lon.length ≠ lat.length then .error .badLength
  else if alt.length ≠ lat.length then .error .badLength
  else (bodyOf moon frame ellipsoid).map fun e => (zipLla lat lon alt).map (xyzFromLla1 e)

/-- The centre arguments of `ENU_from_ECEF` and `ECEF_from_ENU` (coordinates.py lines 310-315,
434-439).  A `center_loc` object only supplies the same three numbers, the frame and the
ellipsoid (lines 296-309), so it is not modelled apart. -/
def centreOf (lat lon alt : Option ℝ) : Except Err LLA :=
  match lat, lon, alt with
  | some a, some b, some c => .ok ⟨a, b, c⟩
  | _, _, _ => .error .noCentre

open Classical in
/-- `ENU_from_ECEF` (coordinates.py lines 252-374) on an `(Npts, 3)` array. -/
def enuFromEcef (moon : Option Moon) (frame : Frame) (ellipsoid : Option String)
    (lat lon alt : Option ℝ) (xyz : List V3) : Except Err (List V3) :=
  match centreOf lat lon alt with
  | .error err => .error err
  | .ok c =>
    if frame = .mcmf ∧ moon.isNone then .error .noMoon
    else if frame = .other then .error .badFrame
    else if (∃ p ∈ xyz, norm p ≤ (radiusRange frame).1) ∨
        ∃ p ∈ xyz, norm p ≥ (radiusRange frame).2 then .error .badRadius
    else (bodyOf moon frame ellipsoid).map fun e => xyz.map (enuFromEcef1 e c)

/-- `ECEF_from_ENU` (coordinates.py lines 377-481) on an `(Npts, 3)` array: no radius check. -/
def ecefFromEnu (moon : Option Moon) (frame : Frame) (ellipsoid : Option String)
    (lat lon alt : Option ℝ) (enu : List V3) : Except Err (List V3) :=
  match centreOf lat lon alt with
  | .error err => .error err
  | .ok c =>
    if frame = .mcmf ∧ moon.isNone then .error .noMoon
    else if frame = .other then .error .badFrame
    else (bodyOf moon frame ellipsoid).map fun e => enu.map (ecefFromEnu1 e c)

/-- The rotation matrix of lines 213-219 and 242-248 applied to one point. -/
def rotZ (angle : ℝ) (p : V3) : V3 :=
  { x := Real.cos angle * p.x + -1 * Real.sin angle * p.y + 0 * p.z
    y := Real.sin angle * p.x + Real.cos angle * p.y + 0 * p.z
    z := 0 * p.x + 0 * p.y + 1 * p.z }

/-- `rotECEF_from_ECEF` (coordinates.py lines 191-220). -/
def rotEcefFromEcef (xyz : List V3) (longitude : ℝ) : List V3 :=
  xyz.map (rotZ (-1 * longitude))

/-- `ECEF_from_rotECEF` (coordinates.py lines 223-249). -/
def ecefFromRotEcef (xyz : List V3) (longitude : ℝ) : List V3 :=
  xyz.map (rotZ longitude)

end

end Verif.Coord
