import Mathlib.Algebra.Order.Ring.Abs
import Mathlib.Algebra.Order.Field.Basic
import Mathlib.Data.List.Basic
import Mathlib.Data.List.Dedup

/-!
# The check of a UVData object

Model of `UVData.check` and `_fix_autos`, `src/pyuvdata/uvdata/uvdata.py` 2103-2488.

Simplifications.  Numbers are exact, in an ordered field `K`; visibilities are pairs of real and imaginary part, `mag` is
their absolute value.  The checks of each parameter by itself (`UVBase.check`, see C62) and of the telescope are a
parameter `base`.  The baseline vectors expected from the antenna positions (2355, see C56) are a parameter `expd`.
Warnings are left out; so are the positions on the surface of the earth and the sidereal times, for which there are only
warnings, and the spacing of channels (2486).  If the number of times is wrong there is an error in any case, so that the
second time (2244) may be taken to exist.
-/

namespace Verif.Check

/-- The parts of an object that are looked at. -/
structure Obj (K : Type) where
  nants : Nat
  nbls : Nat
  ntimes : Nat
  npols : Nat
  nf : Nat
  ant1 : List Nat
  ant2 : List Nat
  bl : List Nat
  time : List K
  centers : List Nat
  /-- keys of the catalog of phase centers -/
  cat : List Nat
  rect : Bool
  timeFaster : Bool
  spws : List Nat
  flexId : List Nat
  flexPol : Option (List Int)
  pols : List Int
  /-- antenna numbers of the telescope -/
  tel : List Nat
  uncalib : Bool
  /-- `pol_convention` is set -/
  polConv : Bool
  uvw : Nat → Nat → K
  data : Option (Nat → Nat → Nat → K × K)

structure Opts where
  accept : Bool
  strict : Bool
  flip : Bool
  autos : Bool
  fix : Bool

inductive Err
  | base | polConv | spw | fasterNotRect | fasterNot | nants | nbls | ntimes | center | flexNpols | flexPols | zeroPol
  | ant1 | ant2 | uvw | noData | autoUvw | autoImag | key | crossUvw
deriving DecidableEq

/-- Polarizations with real autocorrelations: xx, yy, rr, ll and Stokes parameters, uvdata.py 2119, 2406. -/
def realPol (p : Int) : Bool := p ∈ [-5, -6, -1, -2, 1, 2, 3, 4]

variable {K : Type} [Field K] [LinearOrder K] [IsStrictOrderedRing K]

/-- The first part, uvdata.py 2219-2312: which check fails. -/
def metaErr (o : Obj K) : Option Err :=
  if o.uncalib && o.polConv then some .polConv
  else if !(o.flexId.all (fun s => decide (s ∈ o.spws))) then some .spw
  else if o.timeFaster && !o.rect then some .fasterNotRect
  else if o.timeFaster && decide (1 < o.ntimes ∧ o.time[1]? = o.time[0]?) then some .fasterNot
  else if o.nants ≠ (o.ant1 ++ o.ant2).dedup.length then some .nants
  else if o.nbls ≠ o.bl.dedup.length then some .nbls
  else if o.ntimes ≠ o.time.dedup.length then some .ntimes
  else if !(o.centers.all (fun c => decide (c ∈ o.cat))) then some .center
  else if o.flexPol.isSome && decide (o.npols ≠ 1) then some .flexNpols
  else if o.flexPol.isSome && o.pols.any (fun p => p != 0) then some .flexPols
  else if o.flexPol.isNone && o.pols.any (fun p => p == 0) then some .zeroPol
  else if !(o.ant1.all (fun a => decide (a ∈ o.tel))) then some .ant1
  else if !(o.ant2.all (fun a => decide (a ∈ o.tel))) then some .ant2
  else none

/-- Rows of autocorrelations, uvdata.py 2115, 2389. -/
def isAuto (o : Obj K) (r : Nat) : Bool := decide (o.ant1[r]? = o.ant2[r]?)

def rows (o : Obj K) : List Nat := List.range o.ant1.length

/-- `np.allclose(sign * expd, uvw, atol)`, uvdata.py 2360-2364; `rtol` is 1e-5. -/
def uvwClose (rtol atol : K) (expd : Nat → Nat → K) (o : Obj K) (sign : K) : Bool :=
  (rows o).all (fun r => [0, 1, 2].all (fun c => decide (|sign * expd r c - o.uvw r c| ≤ atol + rtol * |o.uvw r c|)))

/-- The object flipped, uvdata.py 2369-2370. -/
def flipped (o : Obj K) : Obj K :=
  { o with uvw := fun r c => -o.uvw r c, data := o.data.map (fun d r f p => ((d r f p).1, -(d r f p).2)) }

/-- Position of the last window with this number, uvdata.py 2415-2418; 0 if there is none. -/
def spwInd (spws : List Nat) (s : Nat) : Nat :=
  ((List.range spws.length).filter (fun i => decide (spws[i]? = some s))).getLastD 0

/-- `freq_screen` and `pol_screen`, uvdata.py 2406-2426: whether autocorrelations in a channel and polarization are
looked at. -/
def screen (o : Obj K) (f p : Nat) : Bool :=
  match o.flexPol with
  | some l => realPol (l.getD (spwInd o.spws (o.flexId.getD f 0)) 0)
  | none => realPol (o.pols.getD p 0)

/-- `auto_imag`, uvdata.py 2428-2440. -/
def autoImag (o : Obj K) (d : Nat → Nat → Nat → K × K) : Bool :=
  (rows o).any (fun r => isAuto o r && (List.range o.nf).any (fun f => (List.range o.npols).any (fun p =>
    screen o f p && decide ((d r f p).2 ≠ 0))))

/-- `_fix_autos`, uvdata.py 2103-2139; `none` is a `KeyError` (polarization 0 has no name). -/
def fixAutos (mag : K × K → K) (o : Obj K) (d : Nat → Nat → Nat → K × K) : Option (Nat → Nat → Nat → K × K) :=
  if o.pols.any (fun p => p == 0) then none
  else some (fun r f p => if isAuto o r && realPol (o.pols.getD p 0) then (mag (d r f p), 0) else d r f p)

/-- Uvdata.py 2469-2483. -/
def crossErr (tol : K) (o : Obj K) : Option Err :=
  if (rows o).any (fun r => !isAuto o r &&
    decide (o.uvw r 0 ^ 2 + o.uvw r 1 ^ 2 + o.uvw r 2 ^ 2 ≤ tol ^ 2)) then some .crossUvw else none

/-- Uvdata.py 2402-2467: real autocorrelations, then the rest. -/
def autoPart (tol : K) (mag : K × K → K) (op : Opts) (o : Obj K) : Obj K × Option Err :=
  match o.data with
  | none => (o, crossErr tol o)
  | some d =>
    if op.autos && autoImag o d then
      if op.fix then
        match fixAutos mag o d with
        | none => (o, some .key)
        | some d' => ({ o with data := some d' }, crossErr tol o)
      else (o, some .autoImag)
    else (o, crossErr tol o)

/-- Uvdata.py 2389-2483. -/
def autoUvw (tol : K) (mag : K × K → K) (op : Opts) (o : Obj K) : Obj K × Option Err :=
  if (rows o).all (fun r => !isAuto o r || [0, 1, 2].all (fun c => decide (|o.uvw r c| ≤ tol))) then
    autoPart tol mag op o
  else (o, some .autoUvw)

/-- `check`, uvdata.py 2141-2488: the object afterwards and the error. -/
def check (base : Bool) (rtol atol tol : K) (expd : Nat → Nat → K) (mag : K × K → K) (op : Opts) (o : Obj K) :
    Obj K × Option Err :=
  if !base then (o, some .base)
  else
    match metaErr o with
    | some e => (o, some e)
    | none =>
      if !op.accept then (o, none)
      else if uvwClose rtol atol expd o 1 then autoUvw tol mag op o
      else if op.flip && uvwClose rtol atol expd o (-1) then
        match o.data with
        | none => ({ o with uvw := fun r c => -o.uvw r c }, some .noData)
        | some _ => autoUvw tol mag op (flipped o)
      else if op.strict then (o, some .uvw)
      else autoUvw tol mag op o

end Verif.Check
