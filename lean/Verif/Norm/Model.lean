import Mathlib.Algebra.Module.Basic
import Mathlib.Algebra.Order.Field.Basic
import Mathlib.Data.List.Basic

/-!
# Normalization of visibilities by autocorrelations

Model of `UVData.normalize_by_autos`, `src/pyuvdata/uvdata/uvdata.py` 11885-12016.

Simplifications.  Numbers are exact: autocorrelations and weights are in an ordered field `K`, visibilities in a module
`V` over it, `re` is the real part, `sqrt` the square root.  Arrays are functions of positions.  `np.argsort` is not
stable: its result is a parameter.  `np.searchsorted` is the binary search of numpy also on arrays that are not sorted.
-/

namespace Verif.Norm

/-- The parts of an object that are used. -/
structure Obj (K V : Type) where
  n : Nat
  nf : Nat
  time : Nat → K
  a : Nat → Nat
  b : Nat → Nat
  pols : List Int
  data : Nat → Nat → Nat → V
  flag : Nat → Nat → Nat → Bool

inductive Err
  | noAutos
  | noAutoPol
deriving DecidableEq

/-- The polarizations of the autocorrelations of the two feeds of a polarization; `none` is a `KeyError` (Stokes
parameters, and 0 of objects with a polarization for each window), uvdata.py 11918-11923 and utils/pol.py 24-73. -/
def autosOf : Int → Option (Int × Int)
  | -1 => some (-1, -1)
  | -2 => some (-2, -2)
  | -3 => some (-1, -2)
  | -4 => some (-2, -1)
  | -5 => some (-5, -5)
  | -6 => some (-6, -6)
  | -7 => some (-5, -6)
  | -8 => some (-6, -5)
  | _ => none

/-- One entry of `pol_groups`, uvdata.py 11917-11937. -/
def polGroup (pols : List Int) (p : Int) : Option (Nat × Nat) :=
  match autosOf p with
  | none => some (pols.idxOf p, pols.idxOf p)
  | some (x, y) => if x ∈ pols ∧ y ∈ pols then some (pols.idxOf x, pols.idxOf y) else none

/-- `pol_groups`, uvdata.py 11914-11937. -/
def polGroups (pols : List Int) : Option (List (Nat × Nat)) := pols.mapM (polGroup pols)

section
variable {K V : Type} [Field K] [LinearOrder K]

/-- The binary search of `np.searchsorted(…, "right")`. -/
def bsearch (ts : List K) (key : K) : Nat → Nat → Nat → Nat
  | 0, lo, _ => lo
  | fuel + 1, lo, hi =>
    if lo < hi then
      if ts.getD (lo + (hi - lo) / 2) 0 ≤ key then bsearch ts key fuel (lo + (hi - lo) / 2 + 1) hi
      else bsearch ts key fuel lo (lo + (hi - lo) / 2)
    else lo

def searchRight (ts : List K) (key : K) : Nat := bsearch ts key ts.length 0 ts.length

/-- The loop over times, uvdata.py 11958-11968; `ts` and `idx` are what is left of `ordered_time` and `blt_idx`. -/
def timeGroups (tol : K) : Nat → List K → List Nat → List (List Nat)
  | 0, _, _ => []
  | _ + 1, [], _ => []
  | fuel + 1, t :: ts, idx =>
    idx.take (searchRight (t :: ts) (t + tol)) ::
      timeGroups tol fuel ((t :: ts).drop (searchRight (t :: ts) (t + tol)))
        (idx.drop (searchRight (t :: ts) (t + tol)))

/-- The times in the order of the rows. -/
def timesOf (o : Obj K V) : List K := (List.range o.n).map o.time

/-- `time_ordered`, uvdata.py 11949. -/
def timeOrdered (ts : List K) : Bool := (ts.zip ts.tail).all (fun p => decide (p.1 ≤ p.2))

/-- `time_groups`, uvdata.py 11949-11968.  Line 11951 takes the times as they are if they are not ordered. -/
def groups (argsort : List K → List Nat) (tol : K) (o : Obj K V) : List (List Nat) :=
  timeGroups tol o.n (timesOf o) (if timeOrdered (timesOf o) then List.range o.n else argsort (timesOf o))

/-- The autocorrelation of an antenna in a group: the last one counts, uvdata.py 11977-11998. -/
def autoRow (o : Obj K V) (g : List Nat) (ant : Nat) : Option Nat :=
  (g.filter (fun r => o.a r == ant && o.b r == ant)).getLast?

variable [AddCommGroup V] [Module K V]

/-- `auto_flag`, uvdata.py 11988. -/
def autoFlag (re : V → K) (o : Obj K V) (r f p : Nat) : Bool := o.flag r f p || !decide (0 < re (o.data r f p))

/-- `norm_data`, uvdata.py 11989-11996. -/
def norm (sqrt : K → K) (re : V → K) (invert : Bool) (o : Obj K V) (r f p : Nat) : K :=
  if invert then (if autoFlag re o r f p then 0 else sqrt (re (o.data r f p)))
  else sqrt (if autoFlag re o r f p then 0 else (re (o.data r f p))⁻¹)

/-- One row of a group, uvdata.py 12002-12016: data and flags of a channel and polarization. -/
def cell (sqrt : K → K) (re : V → K) (skip invert : Bool) (pg : List (Nat × Nat)) (o : Obj K V) (g : List Nat)
    (r f j : Nat) : V × Bool :=
  match autoRow o g (o.a r), autoRow o g (o.b r) with
  | some x, some y =>
    match pg[j]? with
    | some (p, q) =>
      if skip && o.a r == o.b r && p == q then (o.data r f j, o.flag r f j)
      else ((norm sqrt re invert o x f p * norm sqrt re invert o y f q) • o.data r f j,
        o.flag r f j || (autoFlag re o x f p || autoFlag re o y f q))
    | none => (o.data r f j, o.flag r f j)
  | _, _ => (o.data r f j, true)

/-- One group, uvdata.py 11971-12016. -/
def stepGroup (sqrt : K → K) (re : V → K) (skip invert : Bool) (pg : List (Nat × Nat)) (o : Obj K V) (g : List Nat) :
    Obj K V :=
  { o with data := fun r f j => if r ∈ g then (cell sqrt re skip invert pg o g r f j).1 else o.data r f j,
           flag := fun r f j => if r ∈ g then (cell sqrt re skip invert pg o g r f j).2 else o.flag r f j }

/-- `normalize_by_autos`, uvdata.py 11885-12016. -/
def normalize (sqrt : K → K) (re : V → K) (argsort : List K → List Nat) (tol : K) (skip invert : Bool) (o : Obj K V) :
    Except Err (Obj K V) :=
  if (List.range o.n).any (fun r => o.a r == o.b r) then
    match polGroups o.pols with
    | none => .error .noAutoPol
    | some pg => .ok ((groups argsort tol o).foldl (stepGroup sqrt re skip invert pg) o)
  else .error .noAutos

end

end Verif.Norm
