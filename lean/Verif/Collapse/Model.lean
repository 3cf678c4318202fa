import Mathlib.Algebra.Order.Field.Basic
import Mathlib.Algebra.BigOperators.Group.List.Basic
import Verif.Pol.Model

/-!
Model of `src/pyuvdata/utils/array_collapse.py`.

An `axis` argument splits an array into independent cells, one per position of the remaining axes; the model is that of
one cell, the list of the entries that numpy combines into it.  Arithmetic is exact over an ordered field `K`; infinite
values and NaN are represented, signed zeros and overflow are not.
-/
namespace Verif.Collapse
open Verif.Pol (Str)

variable {K : Type} [Field K] [LinearOrder K]

/-- A real float: a finite number, one of the two infinities, or NaN. -/
inductive Val (K : Type) where
  | fin (x : K)
  | inf (neg : Bool)
  | nan
deriving DecidableEq

/-- `np.isinf`. -/
def Val.isInf : Val K → Bool
  | .inf _ => true
  | _ => false

/-- Multiplication of a finite weight and a value: `np.inf * 0` is NaN. -/
def Val.smul (w : K) : Val K → Val K
  | .fin x => .fin (w * x)
  | .inf n => if w = 0 then .nan else .inf (if w < 0 then !n else n)
  | .nan => .nan

/-- Addition: infinities of opposite sign give NaN. -/
def Val.add : Val K → Val K → Val K
  | .nan, _ => .nan
  | _, .nan => .nan
  | .fin x, .fin y => .fin (x + y)
  | .fin _, .inf n => .inf n
  | .inf n, .fin _ => .inf n
  | .inf n, .inf m => if n = m then .inf n else .nan

/-- `np.sum` of floats. -/
def Val.sum : List (Val K) → Val K
  | [] => .fin 0
  | v :: vs => Val.add v (Val.sum vs)

/-- Division by a finite number, only used where that number is positive. -/
def Val.sdiv (v : Val K) (w : K) : Val K :=
  match v with
  | .fin x => .fin (x / w)
  | .inf n => .inf n
  | .nan => .nan

/-- `np.abs`. -/
def Val.abs : Val K → Val K
  | .fin x => .fin |x|
  | .inf _ => .inf false
  | .nan => .nan

/-- `x ** 2`. -/
def Val.sq : Val K → Val K
  | .fin x => .fin (x ^ 2)
  | .inf _ => .inf false
  | .nan => .nan

/-- What `mean_collapse` can return: the mean, the summed weights, the summed squares of the weights. -/
structure Out (K : Type) where
  mean : Val K
  weight : K
  weightSq : K
deriving DecidableEq

/-- Line 41: `weights * np.logical_not(np.isinf(arr))`. -/
def effWeights (arr : List (Val K)) (weights : List K) : List K :=
  List.zipWith (fun w v => if v.isInf then w * 0 else w * 1) weights arr

/-- Line 42: `arr[np.isinf(arr)] = 0`. -/
def zeroInf (arr : List (Val K)) : List (Val K) := arr.map (fun v => if v.isInf then .fin 0 else v)

/-- Lines 37–40: weights default to ones. -/
def getWeights (arr : List (Val K)) (weights : Option (List K)) : List K :=
  match weights with
  | none => arr.map (fun _ => 1)
  | some w => w

/-- `mean_collapse`, lines 11–58, for one cell. -/
def mean (arr : List (Val K)) (weights : Option (List K)) : Out K :=
  let w := effWeights arr (getWeights arr weights)                                     -- 41
  let a := zeroInf arr                                                                 -- 42
  let weightOut := w.sum                                                               -- 43
  let weightSqOut := (w.map (· ^ 2)).sum                                               -- 45–46
  let out := Val.sum (List.zipWith Val.smul w a)                                       -- 47
  { mean := if 1 / 10 ^ 10 < weightOut then out.sdiv weightOut else .inf false         -- 48–50
    weight := weightOut
    weightSq := weightSqOut }

/-- `absmean_collapse`, lines 61–88. -/
def absmean (arr : List (Val K)) (weights : Option (List K)) : Out K := mean (arr.map Val.abs) weights

/-- The mean of squares inside `quadmean_collapse`, lines 112–118; the square root of line 120 is applied by
`quadmean`. -/
def meanSq (arr : List (Val K)) (weights : Option (List K)) : Out K := mean (arr.map (fun v => v.abs.sq)) weights

/-- `quadmean_collapse`, lines 91–124, given the square root of the field. -/
def quadmean (sqrt : K → K) (arr : List (Val K)) (weights : Option (List K)) : Out K :=
  { meanSq arr weights with
    mean := match (meanSq arr weights).mean with
      | .fin x => .fin (sqrt x)
      | .inf false => .inf false
      | _ => .nan }

/-- An array handed to a collapse function: of booleans or of numbers. -/
inductive Arr (K : Type) where
  | bools (b : List Bool)
  | nums (v : List (Val K))

/-- `or_collapse`, lines 127–156 (weights only cause a warning); `none` is `ValueError`. -/
def orCollapse : Arr K → Option Bool
  | .bools b => some (b.any id)
  | .nums _ => none

/-- `and_collapse`, lines 159–188. -/
def andCollapse : Arr K → Option Bool
  | .bools b => some (b.all id)
  | .nums _ => none

end Verif.Collapse
