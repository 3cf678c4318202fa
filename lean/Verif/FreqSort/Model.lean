import Mathlib.Algebra.Order.Field.Basic
import Mathlib.Data.List.Sort
import Verif.Np
import Verif.Pol.Model

/-!
Model of `_sort_freq_helper`, `src/pyuvdata/utils/frequency.py` lines 135–307.

`Nfreqs`, `Nspws` are the lengths of the arrays.  Frequencies are elements of an ordered field.  `np.argsort` is any
function that returns a sorting permutation: numpy does not promise how ties are broken.
-/
namespace Verif.FreqSort
open Verif.Np
open Verif.Pol (Str)

/-- `np.argsort`: a function whose value sorts its argument. -/
structure Argsort (α : Type) [LinearOrder α] where
  run : List α → List Nat
  sorts : ∀ l, IsArgsort l (run l)

/-- The value of an ordering keyword: not given, a string, an index array. -/
inductive Order where
  | none
  | str (s : Str)
  | idx (l : List Int)
deriving DecidableEq

inductive Err where
  | channelIndex | spwIndex | spwString | channelString | empty
deriving DecidableEq

/-- `xs[mask]`. -/
def sel {α : Type} : List Bool → List α → List α
  | true :: m, x :: xs => x :: sel m xs
  | false :: m, _ :: xs => sel m xs
  | _, _ => []

/-- `xs[mask] = vs`. -/
def put {α : Type} : List Bool → List α → List α → List α
  | true :: m, _ :: xs, v :: vs => v :: put m xs vs
  | false :: m, x :: xs, vs => x :: put m xs vs
  | _, xs, _ => xs

/-- `xs[idx]` for indices known to be in range. -/
def fancy {α : Type} (xs : List α) (idx : List Nat) : List α := idx.filterMap (fun i => xs[i]?)

/-- `arr.size == n and np.all(np.sort(arr) == np.arange(n))`, lines 215–217 and 251–253. -/
def isIndexPerm (l : List Int) (n : Nat) : Bool :=
  decide (l.length = n) && decide (l.insertionSort (· ≤ ·) = (List.range n).map (fun i : Nat => (i : Int)))

variable {K : Type} [Field K] [LinearOrder K]

/-- `np.median` of a non-empty list. -/
def median (l : List K) : K :=
  let s := l.insertionSort (· ≤ ·)
  (s.getD ((l.length - 1) / 2) 0 + s.getD (l.length / 2) 0) / 2

/-- Lines 258–279: the spectral window order asked for by a string. -/
def strOrder (sI : Argsort Int) (sF : Argsort K) (freqs : List K) (spws ids : List Int) (s : Str) :
    Except Err (List Nat) :=
  if s ∉ ["number".toList, "freq".toList, "-number".toList, "-freq".toList] then .error .spwString    -- 258–262
  else if 1 < spws.length then                                                                       -- 263
    let base :=
      if "number".toList <:+: s then sI.run spws                                                     -- 270–271
      else sF.run (spws.map (fun w => median (sel (ids.map (· == w)) freqs)))                        -- 272–275
    .ok (if s.head? = some '-' then base.reverse else base)                                          -- 268, 276–277
  else .ok (List.range spws.length)                                                                  -- 278–279

/-- Lines 249–279. -/
def spwOrder (sI : Argsort Int) (sF : Argsort K) (freqs : List K) (spws ids : List Int) :
    Order → Except Err (List Nat)
  | .idx l => if isIndexPerm l spws.length then .ok (l.map Int.toNat) else .error .spwIndex
  | .str s => strOrder sI sF freqs spws ids s
  | .none => .ok (List.range spws.length)

/-- Lines 281–283: the channels, window by window. -/
def groupBy (n : Nat) (ids : List Int) (ord : List Int) : List Nat :=
  ord.flatMap (fun w => sel (ids.map (· == w)) (List.range n))

/-- State of the sort: `index_array`, `temp_freqs`, `temp_spws`. -/
structure St (K : Type) where
  index : List Nat
  freqs : List K
  spws : List Int

/-- Lines 295–302: sort the channels of one window in place. -/
def sortWindow (sF : Argsort K) (neg : Bool) (st : St K) (w : Int) : St K :=
  let mask := st.spws.map (· == w)
  let sub := sel mask st.index
  let sub := fancy sub (sF.run (sel mask st.freqs))
  { st with index := put mask st.index (if neg then sub.reverse else sub) }

/-- Lines 293–302. -/
def sortWindows (sF : Argsort K) (neg : Bool) (sortSpw : Int → Bool) (spws : List Int) (st : St K) : St K :=
  spws.foldl (fun st w => if sortSpw w then sortWindow sF neg st w else st) st

/-- Lines 303–307: `None` when there is nothing to do. -/
def finish (idx : List Nat) : Option (List Nat) :=
  if idx.IsChain (· < ·) then none else some idx

/-- Lines 287–302 for a channel order that is not an index array. -/
def channelStage (sF : Argsort K) (spws : List Int) (sortSpw : Int → Bool) (co : Order) (st : St K) :
    Except Err (Option (List Nat)) :=
  match co with
  | .none => .ok (finish st.index)
  | .str s =>
    if s ∉ ["freq".toList, "-freq".toList] then .error .channelString                                -- 288–292
    else .ok (finish (sortWindows sF (s.head? = some '-') sortSpw spws st).index)
  | .idx _ => .error .channelString

/-- Lines 248–285: the state after windows have been ordered. -/
def spwStage (sI : Argsort Int) (sF : Argsort K) (freqs : List K) (spws ids : List Int) (so : Order) :
    Except Err (St K) :=
  match spwOrder sI sF freqs spws ids so with
  | .error e => .error e
  | .ok ord =>
    if fancy spws ord = [] then .error .empty
    else
      let index := groupBy freqs.length ids (fancy spws ord)
      .ok { index := index, freqs := fancy freqs index, spws := fancy ids index }

/-- The initial state, lines 224–228. -/
def start (freqs : List K) (ids : List Int) : St K :=
  { index := List.range freqs.length, freqs := freqs, spws := ids }

/-- `_sort_freq_helper`.  A scalar `select_spw` is the one-element list. -/
def sortFreq (sI : Argsort Int) (sF : Argsort K) (freqs : List K) (spws ids : List Int) (so co : Order)
    (selectSpw : Option (List Int)) : Except Err (Option (List Nat)) :=
  if so = .none ∧ co = .none then .ok none                                                           -- 195–200
  else match co with
  | .idx l =>
    if isIndexPerm l freqs.length then .ok (finish (l.map Int.toNat)) else .error .channelIndex      -- 203–222
  | co =>
    match selectSpw with
    | some ws =>
      if co = .none then .ok none                                                                    -- 238–243
      else channelStage sF spws (fun w => ws.contains w) co (start freqs ids)                        -- 244–247
    | none =>
      if so = .none then channelStage sF spws (fun _ => co ≠ .none) co (start freqs ids)
      else spwStage sI sF freqs spws ids so >>= channelStage sF spws (fun _ => co ≠ .none) co

end Verif.FreqSort
