import Verif.Np
import Mathlib.Data.Rat.Defs
import Mathlib.Algebra.Order.Ring.Rat

/-!
Model of `src/pyuvdata/utils/tools.py` lines 59–181 (`_convert_to_slices`, `slicify`).

Simplifications: indices are non-negative (`Nat`); `max_nslice_frac` is a rational and the product
`max_nslice_frac * Ninds` is exact (floating point in the code).
-/
namespace Verif.Slices
open Verif.Np

/-- The `indices` argument of `_convert_to_slices`, tools.py 59–109: a slice, a single index, a boolean
mask, or a list/array of indices. -/
inductive Inds where
  | slice (s : PSlice)
  | int (i : Nat)
  | mask (m : List Bool)
  | list (l : List Nat)
  deriving DecidableEq

/-- One entry of the returned list: a slice, or (`return_index_on_fail`) the argument itself,
tools.py 123, 165. -/
inductive Entry where
  | slice (s : PSlice)
  | inds (i : Inds)
  deriving DecidableEq

/-- `eval_ind`, tools.py 106–109 (only reached for masks and lists). -/
def evalInd : Inds → List Nat
  | .mask m => whereIdx (fun b => b) m
  | .list l => l
  | _ => []

/-- The variables of the loop at tools.py 130–153.  `lastInd` is unbound until the second iteration in
the code; here it starts at `0` and is not read before being set. -/
structure St where
  start : Option Nat := none
  lastStep : Option Int := none
  lastInd : Nat := 0
  slices : List PSlice := []

/-- One iteration, tools.py 131–153. -/
def loopStep (s : St) (ind : Nat) : St :=
  match s.lastStep with
  | none =>
    match s.start with
    | none => { s with start := some ind }
    | some st => { s with lastStep := some ((ind : Int) - st), lastInd := ind }
  | some ls =>
    if (ind : Int) - s.lastInd ≠ ls then
      { start := some ind, lastStep := none, lastInd := ind
        slices := s.slices ++ [⟨s.start.getD 0, s.lastInd + 1, some ls⟩] }
    else { s with lastInd := ind }

/-- The loop and the final append, tools.py 130–156 (`ind` after the loop is the last element). -/
def greedy (l : List Nat) : List PSlice :=
  let s := l.foldl loopStep {}
  s.slices ++ [⟨s.start.getD 0, l.getLastD 0 + 1, s.lastStep⟩]

/-- `check`, tools.py 160–162: are there few enough slices. -/
def nsliceCheck (nsl nind : Nat) (maxFrac : Rat) : Option Nat → Bool
  | some m => decide (nsl ≤ m)
  | none => decide ((nsl : Rat) ≤ maxFrac * nind)

/-- The part of `_convert_to_slices` after `eval_ind` is known, tools.py 110–167. -/
def convertSeq (indices : Inds) (e : List Nat) (maxFrac : Rat) (maxN : Option Nat) (retFail : Bool) :
    List Entry × Bool :=
  if e.length = 0 then ([.slice ⟨0, 0, some 0⟩], false)            -- 111–112
  else if e.length ≤ 2 then                                        -- 113–116
    ([.slice ⟨e.headD 0, e.getLastD 0 + 1, some (max ((e.getLastD 0 : Int) - e.headD 0) 1)⟩], true)
  else if maxN = some 1 ∧ retFail = true then                      -- 119–123
    let step : Int := (e.tail.headD 0 : Int) - e.headD 0
    if (e.zip e.tail).all (fun p => decide ((p.2 : Int) - p.1 = step)) then
      ([.slice ⟨e.headD 0, e.getLastD 0 + 1, some step⟩], true)
    else ([.inds indices], false)
  else
    let sl := greedy e                                             -- 126–156
    let check := nsliceCheck sl.length e.length maxFrac maxN       -- 160–162
    if retFail = true ∧ check = false then ([.inds indices], check) -- 164–167
    else (sl.map Entry.slice, check)

/-- `_convert_to_slices`, tools.py 59–167. -/
def convert (indices : Inds) (maxFrac : Rat) (maxN : Option Nat) (retFail : Bool) :
    List Entry × Bool :=
  match indices with
  | .slice s => ([.slice s], true)                                   -- 100–101
  | .int i => ([.slice ⟨i, i + 1, some 1⟩], true)                    -- 102–103
  | .mask m => convertSeq (.mask m) (evalInd (.mask m)) maxFrac maxN retFail
  | .list l => convertSeq (.list l) (evalInd (.list l)) maxFrac maxN retFail

/-- Result of `slicify`, tools.py 170–181: `None`, a slice, or the argument unchanged. -/
inductive SlicifyOut where
  | none
  | slice (s : PSlice)
  | inds (l : List Nat)
  deriving DecidableEq

/-- `slicify` of an index list, tools.py 174–181 (`None` and slices are returned unchanged, 172–173).
`len(set(np.ediff1d(ind))) <= 1` is: all consecutive differences are equal. -/
def slicify (ind : List Nat) : SlicifyOut :=
  if ind.length = 0 then .none
  else if ((ind.zip ind.tail).map (fun p => (p.2 : Int) - p.1)).dedup.length ≤ 1 then
    .slice ⟨ind.headD 0, ind.getLastD 0 + 1,
      some (if ind.length > 1 then (ind.tail.headD 0 : Int) - ind.headD 0 else 1)⟩
  else .inds ind

end Verif.Slices
