import Verif.Resample.Down

/-!
# Resampling to a target time

Model of `UVData.resample_in_time` (uvdata.py 8111–8210), which decides whether to call `downsample_in_time` and
`upsample_in_time` (`Verif.Resample.Model`).  The order of rows between the two calls (`blt_order`) does not matter for the
second one, which looks at single rows.
-/
set_option linter.unusedSectionVars false

namespace Verif.Resample

variable {K V ι : Type} [Field K] [LinearOrder K] [FloorRing K] [AddCommGroup V] [Module K V]

inductive AutoErr where
  | down (e : Err)
  | up
deriving DecidableEq

/-- Lines 8168–8174: the whole part of the quotient of the target and the shortest integration is at least two. -/
def wantsDown (target : K) (rows : List (Row K V ι)) (onlyUp : Bool) : Bool :=
  decide (2 ≤ ⌊target / extremum min (rows.map Row.integ)⌋) && !onlyUp

/-- Lines 8169–8179. -/
def wantsUp (target : K) (rows : List (Row K V ι)) (onlyDown : Bool) : Bool :=
  decide (2 ≤ ⌊extremum max (rows.map Row.integ) / target⌋) && !onlyDown

/-- Lines 8190–8199. -/
def downIf (t : Tols K) (target : K) (keep summing : Bool) (nphase : Nat) (sort : List (Row K V ι) → List (Row K V ι))
    (down : Bool) (rows : List (Row K V ι)) : Except AutoErr (List (Row K V ι)) :=
  if down then
    match downsample t (.minInt target) keep summing nphase sort rows with
    | .error e => .error (.down e)
    | .ok out => .ok out
  else .ok rows

/-- Lines 8200–8208. -/
def upIf (t : Tols K) (target : K) (summing up : Bool) (rows : List (Row K V ι)) : Except AutoErr (List (Row K V ι)) :=
  if up then
    match upsample t target summing rows with
    | none => .error .up
    | some out => .ok out
  else .ok rows

/-- `resample_in_time` (lines 8167–8210). -/
def resample (t : Tols K) (target : K) (onlyDown onlyUp keep summing : Bool) (nphase : Nat)
    (sort : List (Row K V ι) → List (Row K V ι)) (rows : List (Row K V ι)) : Except AutoErr (List (Row K V ι)) :=
  let down := wantsDown target rows onlyUp
  let up := wantsUp target rows onlyDown
  if !down && !up then .ok rows
  else
    match downIf t target keep summing nphase sort down rows with
    | .error e => .error e
    | .ok mid => upIf t target summing up mid

end Verif.Resample
