import Mathlib.Data.List.Dedup
import Verif.Add.Model
import Verif.Pol.Model

/-! # `UVCal.fast_concat`

src/pyuvdata/uvcal/uvcal.py 3447–3896, for objects with data and `inplace=True`; the state after an error is modelled too.

* Arrays have a length for each of their four axes and a value for each position; the total quality has a length of one for antennas.
* Identifiers of phase centers are those after catalogs have been made consistent (3674–3684; that step is the one of `Verif.Concat`).
* Comparison of parameters of real numbers is a parameter (`Close`), since `UVParameter.__eq__` compares within tolerances.
* `cal_type`, `telescope`, `gain_convention`, `cal_style` and `ref_antenna_name` are one value (`head`). What the history gets from those of others
  (3643–3655) is a parameter.
* Left out: `check`, file names, warnings, objects without data, and types of arguments. -/

namespace Verif.CalConcat

open Verif.Add (firstAppearance)
open Verif.Pol (Str)

/-- Axes of arrays. -/
inductive Dim
  | ant | freq | time | jones
deriving DecidableEq, Repr

/-- Values of `axis` (3555–3559). -/
inductive Axis
  | antenna | time | jones | spw | freq
deriving DecidableEq, Repr

/-- `axis_num` (3701, 3751, 3766, 3801, 3807). -/
def Axis.dim : Axis → Dim
  | .antenna => .ant
  | .time => .time
  | .jones => .jones
  | .spw => .freq
  | .freq => .freq

/-- A position, or a shape. -/
abbrev Pos := Dim → Nat

/-- A position moved along an axis. -/
def setAt (i : Pos) (d : Dim) (n : Nat) : Pos := fun e => if e = d then n else i e

structure Arr (V : Type) where
  n : Pos
  v : Pos → V

variable {K V W H : Type}

/-- `np.concatenate` of two arrays. -/
def Arr.cat (d : Dim) (a b : Arr V) : Arr V :=
  { n := setAt a.n d (a.n d + b.n d)
    v := fun i => if i d < a.n d then a.v i else b.v (setAt i d (i d - a.n d)) }

/-- `np.concatenate` of several arrays. -/
def catAll (d : Dim) (a : Arr V) (l : List (Arr V)) : Arr V := l.foldl (Arr.cat d) a

/-- Arrays that can be concatenated: equal lengths of other axes. -/
def sameOther (d : Dim) (a b : Pos) : Bool := [Dim.ant, .freq, .time, .jones].all fun e => decide (e = d) || decide (a e = b e)

structure Obj (K V W H : Type) where
  head : H
  wide : Bool
  isGain : Bool
  ants : List Int
  freq : Option (List K)
  width : Option (List K)
  spwId : Option (List Int)
  spws : List Int
  freqRange : Option (List (K × K))
  flexJones : Option (List Int)
  time : Option (List K)
  timeRange : Option (List (K × K))
  integ : List K
  lst : Option (List K)
  lstRange : Option (List (K × K))
  hasCatalog : Bool
  pcId : Option (List Int)
  refAnt : Option (List Int)
  jones : List Int
  /-- `gain_array` or `delay_array`. -/
  soln : Arr V
  flag : Arr Bool
  quality : Option (Arr W)
  total : Option (Arr W)
  history : Str

/-- Errors: use of flexible Jones terms, of phase centers, `wide_band`, the axis, time parameters, a parameter that does not match, shapes. -/
inductive Err
  | flex | catalog | wide | axis | timeParams | compat | shape
deriving DecidableEq, Repr

/-- `np.concatenate` of labels. -/
def cat1 {α : Type} (a : List α) (others : List (List α)) : List α := a ++ others.flatten

/-- Labels that may be missing: those of `this` decide. -/
def catO {α : Type} (a : Option (List α)) (others : List (Option (List α))) : Option (List α) :=
  a.map fun l => cat1 l (others.map (·.getD []))

/-- Comparison of parameters. -/
structure Close (K : Type) where
  freq : K → K → Bool
  width : K → K → Bool
  time : K → K → Bool
  integ : K → K → Bool
  lst : K → K → Bool

def near {α : Type} (c : α → α → Bool) (a b : List α) : Bool := decide (a.length = b.length) && (a.zip b).all fun p => c p.1 p.2

def nearO {α : Type} (c : α → α → Bool) : Option (List α) → Option (List α) → Bool
  | some a, some b => near c a b
  | none, none => true
  | _, _ => false

/-- Both ends of ranges. -/
def both (c : K → K → Bool) (p q : K × K) : Bool := c p.1 q.1 && c p.2 q.2

/-- Time parameters (3593–3600, 3606–3612, 3618–3623). -/
def sameTimes (c : Close K) (a b : Obj K V W H) : Bool :=
  nearO c.time a.time b.time && near c.integ a.integ b.integ && nearO c.lst a.lst b.lst && nearO (both c.time) a.timeRange b.timeRange &&
    nearO (both c.lst) a.lstRange b.lstRange

/-- Frequency parameters (3604–3605, 3616–3617, 3628–3629). Spectral windows, ranges of frequencies and flexible Jones terms are not among them. -/
def sameFreqs (c : Close K) (a b : Obj K V W H) : Bool := nearO c.freq a.freq b.freq && nearO c.width a.width b.width

/-- Compatibility parameters (3563–3633). -/
def compatible [DecidableEq H] (c : Close K) (ax : Axis) (a b : Obj K V W H) : Bool :=
  decide (a.head = b.head) && (decide (ax = .time) || a.pcId.isNone || decide (a.pcId = b.pcId)) &&
  match ax with
  | .freq | .spw => decide (a.jones = b.jones) && decide (a.ants = b.ants) && sameTimes c a b
  | .jones => sameFreqs c a b && decide (a.ants = b.ants) && sameTimes c a b
  | .antenna => sameFreqs c a b && decide (a.jones = b.jones) && sameTimes c a b
  | .time => sameFreqs c a b && decide (a.jones = b.jones) && decide (a.ants = b.ants)

/-- Flexible Jones terms of concatenated channels (3720–3733): `spws` is already the new list of windows; `none` is an `IndexError`. -/
def flexOf (spws : List Int) (this : Obj K V W H) (others : List (Obj K V W H)) : Option (List Int) :=
  (spws.map fun s => (cat1 spws (others.map Obj.spws)).idxOf s).mapM fun i => (cat1 (this.flexJones.getD []) (others.map fun o => o.flexJones.getD []))[i]?

/-- Labels along the axis (3696–3807). -/
def labels (ax : Axis) (this : Obj K V W H) (others : List (Obj K V W H)) : Option (Obj K V W H) :=
  match ax with
  | .antenna => some { this with ants := cat1 this.ants (others.map Obj.ants) }
  | .freq =>
    let ids := catO this.spwId (others.map Obj.spwId)
    let spws := firstAppearance (ids.getD [])
    let new := { this with
      freq := catO this.freq (others.map Obj.freq)
      width := catO this.width (others.map Obj.width)
      spwId := ids
      spws := spws }
    match this.flexJones with
    | none => some new
    | some _ => (flexOf spws this others).map fun f => { new with flexJones := some f }
  | .spw => some { this with
      spws := cat1 this.spws (others.map Obj.spws)
      freqRange := catO this.freqRange (others.map Obj.freqRange)
      flexJones := catO this.flexJones (others.map Obj.flexJones) }
  | .time => some { this with
      time := catO this.time (others.map Obj.time)
      timeRange := catO this.timeRange (others.map Obj.timeRange)
      integ := cat1 this.integ (others.map Obj.integ)
      lst := catO this.lst (others.map Obj.lst)
      lstRange := catO this.lstRange (others.map Obj.lstRange)
      pcId := catO this.pcId (others.map Obj.pcId)
      refAnt := catO this.refAnt (others.map Obj.refAnt) }
  | .jones => some { this with jones := cat1 this.jones (others.map Obj.jones) }

/-- A quality, or zeros of its shape (3831–3845, 3864–3878). -/
def orZero [Zero W] (q : Option (Arr W)) (n : Pos) : Arr W := q.getD ⟨n, fun _ => 0⟩

/-- `quality_array` (3824–3846). -/
def qualities [Zero W] (d : Dim) (this : Obj K V W H) (others : List (Obj K V W H)) : Option (Arr W) :=
  if this.quality.isSome || others.any (·.quality.isSome) then
    some (catAll d (orZero this.quality this.flag.n) (others.map fun o => orZero o.quality o.flag.n))
  else this.quality

/-- `total_quality_array` (3848–3881). -/
def totals [Zero W] (ax : Axis) (this : Obj K V W H) (others : List (Obj K V W H)) : Option (Arr W) :=
  if this.total.isSome || others.any (·.total.isSome) then
    if ax = .antenna then none
    else some (catAll ax.dim (orZero this.total (setAt this.flag.n .ant 1)) (others.map fun o => orZero o.total (setAt o.flag.n .ant 1)))
  else this.total

/-- The name of the axis in the history (3587–3626). -/
def Axis.text : Axis → Str
  | .freq => "frequency".toList
  | .spw => "spectral window".toList
  | .jones => "jones".toList
  | .antenna => "antenna".toList
  | .time => "time".toList

/-- `history` (3581, 3642–3655). -/
def newHistory (more : Str → List Str → Str) (ax : Axis) (h : Str) (others : List Str) : Str :=
  let h' := h ++ (" Combined data along ".toList ++ ax.text ++ " axis using pyuvdata.".toList)
  h' ++ more h' others

/-- Checks before anything is changed (3527–3561, 3633). -/
def refusal (ax : Axis) (this : Obj K V W H) (others : List (Obj K V W H)) : Option Err :=
  if others.any fun o => decide (this.flexJones.isNone ≠ o.flexJones.isNone) then some .flex
  else if others.any fun o => decide (this.hasCatalog ≠ o.hasCatalog) || decide (this.pcId.isNone ≠ o.pcId.isNone) then some .catalog
  else if others.any fun o => decide (this.wide ≠ o.wide) then some .wide
  else if (ax = .spw ∧ this.wide = false) ∨ (ax = .freq ∧ (this.wide = true ∨ this.isGain = false)) then some .axis
  else if ax = .time ∧ (others.any fun o => decide (this.time.isNone ≠ o.time.isNone) || decide (this.timeRange.isNone ≠ o.timeRange.isNone)) = true then
    some .timeParams
  else none

/-- `fast_concat(…, inplace=True)`: the object afterwards and an error. -/
def fastConcat [DecidableEq H] [Zero W] (c : Close K) (more : Str → List Str → Str) (ax : Axis) (this : Obj K V W H) (others : List (Obj K V W H)) :
    Obj K V W H × Option Err :=
  match refusal ax this others with
  | some e => (this, some e)
  | none =>
    let this1 := { this with history := newHistory more ax this.history (others.map Obj.history) }
    if others.all (compatible c ax this) then
      match labels ax this1 others with
      | none => (this1, some .shape)
      | some new =>
        if others.all fun o => sameOther ax.dim this.flag.n o.flag.n then
          ({ new with
              flag := catAll ax.dim this.flag (others.map Obj.flag)
              soln := catAll ax.dim this.soln (others.map Obj.soln)
              quality := qualities ax.dim this others
              total := totals ax this others }, none)
        else (new, some .shape)
    else (this1, some .compat)

end Verif.CalConcat
