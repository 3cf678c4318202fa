import Mathlib.Algebra.Order.Field.Basic
import Verif.Np

/-!
Model of `_select_times_helper`, `src/pyuvdata/utils/times.py` lines 324–534, and of `_check_range_overlap`,
`src/pyuvdata/utils/tools.py` lines 271–302, for two ranges.

Times are elements of an ordered field; `P` is the float `2 * np.pi`.  Scalars given for `times` or `lsts` are
one-element lists, nested lists are flattened (lines 392–394, 453–455).  Warnings are left out.
-/
namespace Verif.TimeSel
open Verif.Np

variable {K : Type} [Field K] [LinearOrder K]

inductive Err where
  | manySelectors | noTime | noTimeRange | length | empty | illFormed | noLst | noLstRange
deriving DecidableEq

/-- `np.isclose(a, b, rtol, atol)` for finite numbers. -/
def isclose (tols : K × K) (a b : K) : Bool := decide (|a - b| ≤ tols.2 + tols.1 * |b|)

/-- `_check_range_overlap` of the array with the two rows `a`, `b`; `np.argsort` of two equal starts keeps the rows. -/
def overlap (a b : K × K) : Except Err Bool :=
  if a.2 - a.1 < 0 ∨ b.2 - b.1 < 0 then .error .illFormed                       -- 288–292
  else
    let s := if b.1 < a.1 then (b, a) else (a, b)                               -- 295
    .ok (decide (s.2.1 < s.1.2))                                                -- 298–302

/-- Positions at which `p` holds are appended for every request, or an error is raised if there are none: lines
397–406, 408–421, 475–488. -/
def pickEach {α : Type} (arr : List α) (p : K → α → Bool) (e : Err) : List K → List Nat → Except Err (List Nat)
  | [], acc => .ok acc
  | t :: ts, acc =>
    if whereIdx (p t) arr = [] then .error e else pickEach arr p e ts (acc ++ whereIdx (p t) arr)

/-- Lines 428–430: the ranges of the object that overlap the requested one. -/
def pickOverlap (r : K × K) : Nat → List (K × K) → List Nat → Except Err (List Nat)
  | _, [], acc => .ok acc
  | k, t :: ts, acc =>
    match overlap t r with
    | .error e => .error e
    | .ok b => pickOverlap r (k + 1) ts (if b then acc ++ [k] else acc)

/-- Line 445. -/
def wraps (r : K × K) : Bool := decide (r.2 < r.1)

/-- Lines 459–469: the ranges of the object that contain one LST. -/
def lstRanges (P : K) (rs : List (K × K)) (lst : K) : List Nat :=
  let direct := whereIdx (fun r : K × K => decide (r.1 ≤ lst) && decide (lst ≤ r.2)) rs
  if direct = [] then
    let w := whereIdx (fun r : K × K => wraps r &&
      ((decide (r.1 ≤ lst) && decide (lst ≤ P)) || (decide (0 ≤ lst) && decide (lst ≤ r.2)))) rs
    match w.getLast? with
    | none => []
    | some k => [k]
  else direct

/-- Lines 458–473. -/
def pickLstRanges (P : K) (rs : List (K × K)) : List K → List Nat → Except Err (List Nat)
  | [], acc => .ok acc
  | t :: ts, acc =>
    if lstRanges P rs t = [] then .error .noLstRange else pickLstRanges P rs ts (acc ++ lstRanges P rs t)

/-- Lines 499–507. -/
def pickLstOverlap (P : K) (r : K × K) : Nat → List (K × K) → List Nat → Except Err (List Nat)
  | _, [], acc => .ok acc
  | k, t :: ts, acc =>
    if wraps t = false ∧ r.1 < r.2 then
      match overlap t r with
      | .error e => .error e
      | .ok b => pickLstOverlap P r (k + 1) ts (if b then acc ++ [k] else acc)
    else
      pickLstOverlap P r (k + 1) ts
        (if (t.1 ≤ r.1 ∧ r.1 ≤ P) ∨ (r.2 ≤ t.2 ∧ 0 ≤ r.2) then acc ++ [k] else acc)

/-- Positions in a closed interval, lines 433–435, 514–521, 524–526. -/
def between (arr : List K) (lo hi : K) : List Nat := whereIdx (fun x => decide (x ≤ hi) && decide (lo ≤ x)) arr

/-- Lines 510–526. -/
def lstBetween (P : K) (arr : List K) (lo hi : K) : List Nat :=
  if hi < lo then unique (between arr lo P ++ between arr 0 hi) else between arr lo hi

/-- Lines 437–441, 529–533. -/
def nonEmpty (r : Except Err (List Nat)) : Except Err (Option (List Nat)) :=
  match r with
  | .error e => .error e
  | .ok [] => .error .empty
  | .ok (k :: l) => .ok (some (k :: l))

/-- Lines 423–424, 490–492: a range has two elements. -/
def pair (r : List K) : Except Err (K × K) :=
  match r with
  | [a, b] => .ok (a, b)
  | _ => .error .length

/-- The four selection keywords. -/
structure Req (K : Type) where
  times : Option (List K)
  timeRange : Option (List K)
  lsts : Option (List K)
  lstRange : Option (List K)

/-- The time axis of the object: ranges are used where the object has them. -/
structure Axis (K : Type) where
  times : List K
  timeRanges : Option (List (K × K))
  lsts : List K
  lstRanges : Option (List (K × K))

/-- Lines 391–421. -/
def byTimes (o : Axis K) (tols : K × K) (ts : List K) : Except Err (Option (List Nat)) :=
  match o.timeRanges with
  | some rs => (pickEach rs (fun t r => decide (r.1 ≤ t) && decide (t ≤ r.2)) .noTimeRange ts []).map some
  | none => (pickEach o.times (fun t x => isclose tols x t) .noTime ts []).map some

/-- Lines 423–441. -/
def byTimeRange (o : Axis K) (r : List K) : Except Err (Option (List Nat)) :=
  match pair r with
  | .error e => .error e
  | .ok r =>
    match o.timeRanges with
    | some rs => nonEmpty (pickOverlap r 0 rs [])
    | none => nonEmpty (.ok (between o.times r.1 r.2))

/-- Lines 447–488. -/
def byLsts (P : K) (o : Axis K) (tols : K × K) (ls : List K) : Except Err (Option (List Nat)) :=
  match o.lstRanges with
  | some rs => (pickLstRanges P rs ls []).map some
  | none => (pickEach o.lsts (fun t x => isclose tols x t) .noLst ls []).map some

/-- Lines 490–533. -/
def byLstRange (P : K) (o : Axis K) (r : List K) : Except Err (Option (List Nat)) :=
  match pair r with
  | .error e => .error e
  | .ok r =>
    match o.lstRanges with
    | some rs => nonEmpty (pickLstOverlap P r 0 rs [])
    | none => nonEmpty (.ok (lstBetween P o.lsts r.1 r.2))

/-- `_select_times_helper`: `none` means that no selection was asked for. -/
def selectTimes (P : K) (o : Axis K) (timeTols lstTols : K × K) (q : Req K) : Except Err (Option (List Nat)) :=
  match q.times, q.timeRange, q.lsts, q.lstRange with
  | none, none, none, none => .ok none                                          -- 387–388
  | some ts, none, none, none => byTimes o timeTols ts
  | none, some r, none, none => byTimeRange o r
  | none, none, some ls, none => byLsts P o lstTols ls
  | none, none, none, some r => byLstRange P o r
  | _, _, _, _ => .error .manySelectors                                         -- 382–386

end Verif.TimeSel
