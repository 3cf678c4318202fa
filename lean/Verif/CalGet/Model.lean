import Mathlib.Algebra.Order.Group.Abs
import Mathlib.Algebra.Order.Group.Int
import Mathlib.Algebra.Field.Basic
import Verif.Pol.Model

/-! # Solutions by antenna and Jones term

`UVCal._key_exists`, `ant2ind`, `jpol2ind`, `_slice_array`, `_parse_key`, `get_gains`, `get_flags`, `get_quality`, `get_time_array`
(src/pyuvdata/uvcal/uvcal.py 1805–2027). An array is a function of the positions of antenna, frequency, time and Jones term; a result is a function of the
positions of frequency, time and, unless its axis was dropped, Jones term. Antennas that are neither integers, lists nor tuples are not modelled. -/

namespace Verif.CalGet

open Verif.Pol (Str jstr2num)

structure Obj where
  ants : List Int
  jones : List Int
  xo : Option Str
  isGain : Bool

/-- A Jones term: a name or a number. -/
inductive JArg
  | name (s : Str)
  | num (n : Int)
deriving DecidableEq

/-- The argument `ant`: a number or a list of one or two entries. -/
inductive AntArg
  | int (n : Int)
  | one (n : Int)
  | two (n : Int) (j : JArg)
deriving DecidableEq

/-- Errors: an antenna or Jones term that is not there, an unknown name (a `KeyError`), the type of calibration. -/
inductive Err
  | noAnt | noJones | unknown | calType
deriving DecidableEq, Repr

/-- `np.argmin(np.abs(a - n))` for an array that is not empty (1850, 1872). -/
def argminAbs (n : Int) : List Int → Nat
  | [] => 0
  | x :: l => if l.all (fun y => decide (|x - n| ≤ |y - n|)) then 0 else argminAbs n l + 1

/-- `ant2ind` (1833–1850). -/
def Obj.ant2ind (o : Obj) (n : Int) : Except Err Nat := if n ∈ o.ants then .ok (argminAbs n o.ants) else .error .noAnt

/-- The number of a Jones term (1866–1867). -/
def JArg.number (xo : Option Str) : JArg → Except Err Int
  | .name s => match jstr2num xo s with
    | some n => .ok n
    | none => .error .unknown
  | .num n => .ok n

/-- `jpol2ind` (1852–1872). -/
def Obj.jpol2ind (o : Obj) (j : JArg) : Except Err Nat :=
  match j.number o.xo with
  | .error e => .error e
  | .ok n => if n ∈ o.jones then .ok (argminAbs n o.jones) else .error .noJones

/-- Results with and without an axis of Jones terms. -/
inductive Res (V : Type)
  | three (v : Nat → Nat → Nat → V)
  | two (v : Nat → Nat → V)

variable {V : Type}

/-- `_parse_key` (1906–1936). -/
def parseKey : AntArg → Option JArg → Int × Option JArg
  | .int n, j => (n, j)
  | .one n, _ => (n, none)
  | .two n j, _ => (n, some j)

/-- `_slice_array` (1874–1904). -/
def Obj.slice (o : Obj) (a : Nat → Nat → Nat → Nat → V) (squeeze : Bool) (key : Int × Option JArg) : Except Err (Res V) :=
  match key.2 with
  | none => match o.ant2ind key.1 with
    | .error e => .error e
    | .ok i => .ok (if squeeze && decide (o.jones.length = 1) then .two fun f t => a i f t 0 else .three (a i))
  | some j => match o.ant2ind key.1 with
    | .error e => .error e
    | .ok i => match o.jpol2ind j with
      | .error e => .error e
      | .ok k => .ok (.two fun f t => a i f t k)

/-- `get_flags` and `get_quality` (1966–2013). -/
def Obj.get (o : Obj) (a : Nat → Nat → Nat → Nat → V) (ant : AntArg) (jpol : Option JArg) (squeeze : Bool) : Except Err (Res V) :=
  o.slice a squeeze (parseKey ant jpol)

/-- `get_gains` (1938–1964). -/
def Obj.getGains (o : Obj) (a : Nat → Nat → Nat → Nat → V) (ant : AntArg) (jpol : Option JArg) (squeeze : Bool) : Except Err (Res V) :=
  if o.isGain then o.get a ant jpol squeeze else .error .calType

/-- `get_time_array` (2015–2027). -/
def getTimes {K : Type} [Field K] (ranges : Option (List (K × K))) (times : Option (List K)) : Option (List K) :=
  match ranges with
  | some l => some (l.map fun p => (p.1 + p.2) / 2)
  | none => times

end Verif.CalGet
