import Verif.Collapse.Model
import Verif.Np

/-!
# Metrics of flag objects that are combined or collapsed

Model of `UVFlag.combine_metrics` (`src/pyuvdata/uvflag/uvflag.py` 2302-2372), `collapse_pol` (1137-1211) and
`to_waterfall` (1213-1336), for flags and for metrics with weights. The functions that collapse are those of
`Verif.Collapse`.

* Arrays are functions of the positions of antenna, row, channel and polarization; a row is a baseline-time of objects of
  type "baseline" and a time of the others, and only objects of type "antenna" use the antenna position.
* Names of polarizations are texts: numbers are those of `str`.
* `collapse_pol` and `to_waterfall` change the object itself, so the result is the object afterwards and perhaps an error.
* The only part of `check` that is modelled is the shape of the squares of weights, given as the number of polarizations
  of that array.
* The square root is a parameter. Left out: other metadata, history.
-/

namespace Verif.FlagMet
open Verif.Np
open Verif.Pol (Str)
open Verif.Collapse (Val Out mean absmean quadmean)

inductive Ty
  | baseline | antenna | waterfall
deriving DecidableEq

/-- A method of `utils.collapse`. -/
inductive Method
  | mean | absmean | quadmean | or | and | other
deriving DecidableEq

/-- An array: antenna, row, channel, polarization. -/
abbrev Arr (X : Type) := Nat → Nat → Nat → Nat → X

inductive Data (K : Type)
  | flag (b : Arr Bool)
  | metric (v : Arr (Val K)) (w : Arr K)

structure Obj (K : Type) where
  ty : Ty
  times : List K
  lsts : List K
  nants : Nat
  nf : Nat
  pols : List Str
  data : Data K
  wsq : Option (Nat × Arr K)

inductive Err
  | mode | shape | method | unpack | check
deriving DecidableEq

variable {K : Type} [Field K] [LinearOrder K]

/-- `utils.collapse` of numbers: "or" and "and" want booleans, other names are not known. -/
def numeric (sqrt : K → K) : Method → Option (List (Val K) → Option (List K) → Out K)
  | .mean => some mean
  | .absmean => some absmean
  | .quadmean => some (quadmean sqrt)
  | _ => none

/-- The shape of the arrays. -/
def shape (o : Obj K) : List Nat :=
  if o.ty = .antenna then [o.nants, o.nf, o.times.length, o.pols.length] else [o.times.length, o.nf, o.pols.length]

/-- Metric and weights, if there are. -/
def metricOf (o : Obj K) : Option (Obj K × Arr (Val K) × Arr K) :=
  match o.data with
  | .flag _ => none
  | .metric v w => some (o, v, w)

/-- `combine_metrics`. -/
def combine (sqrt : K → K) (m : Method) (a : Obj K) (others : List (Obj K)) : Except Err (Obj K) :=
  match metricOf a, others.mapM metricOf with
  | some x, some ds =>
    if ds.any (fun d => decide (shape a ≠ shape d.1)) then .error .shape
    else match numeric sqrt m with
      | none => .error .method
      | some g =>
        let out := fun i r f p => g ((x :: ds).map (fun d => d.2.1 i r f p)) (some ((x :: ds).map (fun d => d.2.2 i r f p)))
        .ok { a with data := .metric (fun i r f p => (out i r f p).mean) (fun i r f p => (out i r f p).weight) }
  | _, _ => .error .mode

/-- A flag as a number. -/
def num (b : Bool) : Val K := .fin (if b then 1 else 0)

/-- `utils.collapse` and the mode afterwards (1176-1199, 1264-1322): `es` are the positions that make up a position of the
result. Flags that become metrics have weights one (661-662). `none` is an error. -/
def collapseData (sqrt : K → K) (m : Method) (d : Data K) (es : Nat → Nat → Nat → Nat → List (Nat × Nat × Nat × Nat)) :
    Option (Data K × Arr K) :=
  match d with
  | .flag b => match m with
    | .or => some (.flag (fun i r f p => (es i r f p).any (fun e => b e.1 e.2.1 e.2.2.1 e.2.2.2)), fun _ _ _ _ => 0)
    | .and => some (.flag (fun i r f p => (es i r f p).all (fun e => b e.1 e.2.1 e.2.2.1 e.2.2.2)), fun _ _ _ _ => 0)
    | m => (numeric sqrt m).map (fun g => (.metric
        (fun i r f p => (g ((es i r f p).map (fun e => num (b e.1 e.2.1 e.2.2.1 e.2.2.2)))
          (some ((es i r f p).map (fun _ => 1)))).mean) (fun _ _ _ _ => 1), fun _ _ _ _ => 0))
  | .metric v w => (numeric sqrt m).map (fun g =>
      let out := fun i r f p => g ((es i r f p).map (fun e => v e.1 e.2.1 e.2.2.1 e.2.2.2))
        (some ((es i r f p).map (fun e => w e.1 e.2.1 e.2.2.1 e.2.2.2)))
      (.metric (fun i r f p => (out i r f p).mean) (fun i r f p => (out i r f p).weight), fun i r f p => (out i r f p).weightSq))

/-- `",".join`. -/
def joinNames (l : List Str) : Str := (l.intersperse [',']).flatten

/-- The check of the squares of weights. -/
def checkSq (o : Obj K) : Option Err :=
  match o.wsq with
  | some (n, _) => if n = o.pols.length then none else some .check
  | none => none

/-- `collapse_pol`. -/
def collapsePol (sqrt : K → K) (m : Method) (o : Obj K) : Obj K × Option Err :=
  if 1 < o.pols.length then
    match collapseData sqrt m o.data (fun i r f _ => (List.range o.pols.length).map (fun p => (i, r, f, p))) with
    | none => (o, some .method)
    | some d =>
      let o' := { o with data := d.1, pols := [joinNames o.pols] }
      (o', checkSq o')
  else (o, none)

/-- The part of `to_waterfall` after polarizations, 1258-1336. -/
def collapseRows (sqrt : K → K) (m : Method) (sq : Bool) (o : Obj K) : Obj K × Option Err :=
  match o.ty with
  | .waterfall => (o, checkSq o)
  | .antenna =>
    match collapseData sqrt m o.data (fun _ r f p => (List.range o.nants).map (fun i => (i, r, f, p))) with
    | none => (o, some .method)
    | some d =>
      let o' := { o with ty := .waterfall, data := d.1 }
      (o', checkSq o')
  | .baseline =>
    let ts := unique o.times
    let rowsOf := fun k : Nat => (ts[k]?).elim [] (fun t => whereIdx (fun x => decide (x = t)) o.times)
    match collapseData sqrt m o.data (fun _ k f p => (rowsOf k).map (fun r => (0, r, f, p))) with
    | none => (o, some .method)
    | some d =>
      if sq = true ∧ (m = .or ∨ m = .and) ∧ ts ≠ [] then (o, some .unpack)
      else
        let o' := { o with
          ty := .waterfall
          data := d.1
          times := ts
          lsts := ts.filterMap (fun t => o.lsts[o.times.idxOf t]?)
          wsq := match o.data with
            | .metric _ _ => if sq then some (o.pols.length, d.2) else o.wsq
            | .flag _ => o.wsq }
        (o', checkSq o')

/-- `to_waterfall`. -/
def toWaterfall (sqrt : K → K) (m : Method) (keep sq : Bool) (o : Obj K) : Obj K × Option Err :=
  if o.ty = .waterfall ∧ (keep = true ∨ o.pols.length = 1) then (o, none)
  else if keep = false ∧ 1 < o.pols.length then
    match collapsePol sqrt m o with
    | (o1, some e) => (o1, some e)
    | (o1, none) => collapseRows sqrt m sq o1
  else collapseRows sqrt m sq o

end Verif.FlagMet
