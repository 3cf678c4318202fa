import Verif.Np

/-!
Model of `src/pyuvdata/utils/bltaxis.py`: `determine_blt_order` (9–147) and `determine_rectangularity`
(150–230).

Times are values of an arbitrary linearly ordered type: the code only compares them (and, in the
rectangularity test, sums absolute differences and compares the sum with zero, which for numbers is the
statement that all the differences vanish; this is what is modelled).
-/
namespace Verif.BltAxis
open Verif.Np

/-- One row of the baseline-time axis as the functions see it. -/
structure Row (τ : Type) where
  t : τ
  a : Nat
  b : Nat
  bl : Nat
  deriving DecidableEq

/-- The names used in the returned tuples. -/
inductive Key | time | baseline | ant1 | ant2
  deriving DecidableEq, Repr

/-- The ten booleans, bltaxis.py 18–27. -/
structure Flags where
  timeBl : Bool := true
  timeA : Bool := true
  timeB : Bool := true
  blTime : Bool := true
  aTime : Bool := true
  bTime : Bool := true
  blOrder : Bool := true
  aOrder : Bool := true
  bOrder : Bool := true
  timeOrder : Bool := true
  deriving DecidableEq

variable {τ : Type} [LinearOrder τ]

/-- Clear a flag when the condition holds (`if cond: flag = False`). -/
def clr (cond flag : Bool) : Bool := flag && !cond

/-- One iteration, bltaxis.py 35–78; `p` is the previous row. -/
def step (nbls ntimes i : Nat) (p c : Row τ) (f : Flags) : Flags :=
  let onBl : Bool := i % nbls == 0
  let onTime : Bool := i % ntimes == 0
  let tLt : Bool := decide (c.t < p.t)
  let tEq : Bool := decide (c.t = p.t)
  let blLt : Bool := decide (c.bl < p.bl)
  let aLt : Bool := decide (c.a < p.a)
  let bLt : Bool := decide (c.b < p.b)
  -- 38–54
  let f : Flags :=
    if tLt then
      { f with
        timeBl := false, timeA := false, timeB := false, timeOrder := false
        blTime := clr (!onTime || decide (c.bl = p.bl)) f.blTime
        aTime := clr (!onTime || decide (c.a = p.a)) f.aTime
        bTime := clr (!onTime || decide (c.b = p.b)) f.bTime }
    -- 56–62
    else if tEq then
      { f with
        timeBl := clr blLt f.timeBl
        timeA := clr aLt f.timeA
        timeB := clr bLt f.timeB }
    else f
  -- 64–78
  { f with
    blTime := clr blLt f.blTime
    blOrder := clr blLt f.blOrder
    timeBl := clr (blLt && !onBl) f.timeBl
    aTime := clr aLt f.aTime
    aOrder := clr aLt f.aOrder
    timeA := clr (aLt && !onBl) f.timeA
    bTime := clr bLt f.bTime
    bOrder := clr bLt f.bOrder
    timeB := clr (bLt && !onBl) f.timeB }

/-- bltaxis.py 80–94: is any flag left. -/
def Flags.any (f : Flags) : Bool :=
  f.timeBl || f.timeA || f.timeB || f.blTime || f.aTime || f.bTime || f.blOrder || f.aOrder || f.bOrder ||
    f.timeOrder

/-- The loop, bltaxis.py 32–95, stopping early when every flag is cleared. -/
def loop (nbls ntimes : Nat) : Nat → Row τ → List (Row τ) → Flags → Flags
  | _, _, [], f => f
  | i, p, c :: cs, f =>
    let f' := step nbls ntimes i p c f
    if f'.any then loop nbls ntimes (i + 1) c cs f' else f'

/-- The pairs the assertion forbids, bltaxis.py 98–106. -/
def Flags.conflict (f : Flags) : Bool :=
  (f.timeBl && f.blTime) || (f.timeA && f.aTime) || (f.timeB && f.bTime) || (f.timeOrder && f.aOrder) ||
    (f.timeOrder && f.bOrder) || (f.aOrder && f.bOrder) || (f.timeOrder && f.blOrder)

/-- The returned tuple, bltaxis.py 126–147. -/
def Flags.result (f : Flags) : Option (List Key) :=
  if f.timeBl then some [.time, .baseline]
  else if f.blTime then some [.baseline, .time]
  else if f.timeA then some [.time, .ant1]
  else if f.aTime then some [.ant1, .time]
  else if f.timeB then some [.time, .ant2]
  else if f.bTime then some [.ant2, .time]
  else if f.blOrder then some [.baseline]
  else if f.aOrder then some [.ant1]
  else if f.bOrder then some [.ant2]
  else if f.timeOrder then some [.time]
  else none

/-- Exceptions of `determine_blt_order`. -/
inductive Err | assertion
  deriving DecidableEq

/-- `determine_blt_order`, bltaxis.py 9–147. -/
def determineBltOrder (rows : List (Row τ)) (nbls ntimes : Nat) : Except Err (Option (List Key)) :=
  if nbls = 1 ∧ ntimes = 1 then .ok (some [.baseline, .time])          -- 29–30
  else
    let f := match rows with
      | [] => ({} : Flags)
      | p :: cs => loop nbls ntimes 1 p cs {}
    if 1 < nbls ∧ 1 < ntimes ∧ f.conflict then .error .assertion       -- 97–124
    else .ok f.result

/-- `xs.reshape((r, c))`. -/
def reshape {β : Type} (r c : Nat) (xs : List β) : List (List β) :=
  (List.range r).map (fun i => (xs.drop (i * c)).take c)

/-- `np.diff(m, axis=0)` is zero everywhere: consecutive rows agree. -/
def rowsConst {β : Type} [DecidableEq β] (m : List (List β)) : Bool :=
  (m.zip m.tail).all (fun p => decide (p.1 = p.2))

/-- `np.diff(m, axis=1)` is zero everywhere: within each row consecutive entries agree. -/
def colsConst {β : Type} [DecidableEq β] (m : List (List β)) : Bool :=
  m.all (fun r => (r.zip r.tail).all (fun p => decide (p.1 = p.2)))

/-- `determine_rectangularity`, bltaxis.py 150–230.  Arrays shorter than two entries cannot reach line 208. -/
def determineRectangularity {τ : Type} [DecidableEq τ] (times : List τ) (bls : List Nat) (nbls ntimes : Nat)
    (order : Option (List Key)) : Bool × Bool :=
  if times.length ≠ nbls * ntimes then (false, false)                  -- 194–195
  else if nbls * ntimes = 1 then (true, true)                          -- 196–197
  else if nbls = 1 then (true, true)                                   -- 198–199
  else if ntimes = 1 then (true, false)                                -- 200–201
  else if order = some [.baseline, .time] then (true, true)            -- 202–203
  else if order = some [.time, .baseline] then (true, false)           -- 204–205
  else
    let timeFirst : Bool := !decide (times[1]? = times[0]?)            -- 208–209
    let blFirst : Bool := !decide (bls[1]? = bls[0]?)                  -- 210–211
    if !timeFirst && !blFirst then (false, false)                      -- 212–213
    else if timeFirst then                                             -- 215–222
      if rowsConst (reshape nbls ntimes times) && colsConst (reshape nbls ntimes bls) then (true, true)
      else (false, false)
    else                                                               -- 223–230
      if colsConst (reshape ntimes nbls times) && rowsConst (reshape ntimes nbls bls) then (true, false)
      else (false, false)

end Verif.BltAxis
