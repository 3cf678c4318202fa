import Mathlib.Algebra.Order.Floor.Ring
import Mathlib.Algebra.Order.Field.Basic
import Verif.Np

/-!
# Sidereal times

Model of `get_lst_for_time` (`src/pyuvdata/utils/times.py` 24-247) and `check_lsts_against_times` (250-321).

* Times are a flat list: the shape is put back at the end (line 245).
* What the astronomical libraries give for a time is a parameter: the sidereal time at longitude zero in radians and the drift of the pole
  (`gast`, `sp`; erfa), that at the place in radians (`local`; astropy), that at longitude zero in hours (`gastH`; novas).
* `pi` is a number.
* Warnings about times outside of tables, and whether packages are installed, are left out.
-/

namespace Verif.Lst
open Verif.Np

inductive Lib
  | erfa | astropy | novas
  deriving DecidableEq

inductive Place (K : Type)
  /-- an EarthLocation or MoonLocation object with its longitude in radians -/
  | earth (lon : K)
  | moon (lon : K)
  /-- latitude, longitude and altitude in degrees and meters; whether the frame is given in lower case as itrs, or is mcmf -/
  | degrees (lon : K) (frame : List Char)

inductive Err
  | moonLib | noLongitude
  deriving DecidableEq

variable {K : Type}

/-- Lines 85-98 and 103: is the place on the Moon. -/
def Place.isMoon : Place K → Bool
  | .earth _ => false
  | .moon _ => true
  | .degrees _ f => decide (f.map Char.toUpper = "MCMF".toList)

/-- Lines 95-98 and 123-127: the frame of an object is in upper case, and is compared with lower case. -/
def library (p : Place K) : Option Lib → Lib
  | some l => l
  | none =>
    let frame := match p with
      | .earth _ => "ITRS".toList
      | .moon _ => "MCMF".toList
      | .degrees _ f => f
    if frame = "itrs".toList then .erfa else .astropy

/-- What the libraries know. -/
structure Sky (K : Type) where
  gast : K → K
  sp : K → K
  /-- sidereal time at a longitude (radians), for Earth or Moon -/
  localTime : Bool → K → K → K
  gastH : K → K

section
variable [Field K] [LinearOrder K] [FloorRing K]

/-- `np.mod`. -/
def mod (x m : K) : K := x - m * ⌊x / m⌋

/-- The longitude in radians. -/
def Place.rad (pi : K) : Place K → K
  | .earth l => l
  | .moon l => l
  | .degrees l _ => l * pi / 180

/-- Lines 142 and 164-245: a value for each different time, and for each time the value of its position. -/
def perTime (f : K → K) (jd : List K) : List K :=
  let u := unique jd
  let v := u.map f
  jd.map (fun t => v.getD (u.idxOf t) 0)

/-- `get_lst_for_time`. -/
def getLst (pi : K) (sky : Sky K) (p : Place K) (lib : Option Lib) (jd : List K) : Except Err (List K) :=
  if p.isMoon ∧ library p lib ≠ .astropy then .error .moonLib                                         -- 147-150
  else match library p lib with
  | .erfa => .ok (perTime (fun t => mod (sky.gast t + sky.sp t + p.rad pi) (2 * pi)) jd)               -- 178-180
  | .astropy => .ok (perTime (fun t => sky.localTime p.isMoon (p.rad pi) t) jd)                        -- 182-185
  | .novas => match p with
    | .degrees lon _ => .ok ((perTime sky.gastH jd).map (fun h => mod (h + lon / 15) 24 * (pi / 12)))  -- 227-243
    | _ => .error .noLongitude                                                                         -- 240: the argument is None

/-- `check_lsts_against_times`, 306-321: is there a warning. -/
def warns (pi : K) (sky : Sky K) (p : Place K) (rtol atol : K) (jd lst : List K) : Except Err Bool :=
  match getLst pi sky p none jd with
  | .error e => .error e
  | .ok l => .ok (!((lst.zip l).all (fun q => decide (max (q.1 - q.2) (-(q.1 - q.2)) ≤ atol + rtol * max q.2 (-q.2)))))

end
end Verif.Lst
