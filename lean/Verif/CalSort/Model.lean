import Verif.FreqSort.Reorder
import Verif.Add.Axis

/-!
Model of the reordering methods of `UVCal`: `reorder_antennas`, `src/pyuvdata/uvcal/uvcal.py` lines 2056–2137, `reorder_freqs`, 2139–2292,
`reorder_times`, 2294–2383, `reorder_jones`, 2385–2465.

* An array is a nested list. `main` is `gain_array` or `delay_array`, whichever is set; the other one is `None` and is skipped by the code.
* `N` are names of antennas and of Jones components with numpy's order of strings; `antName` is the table of antenna names of the telescope,
  `jName` the function `jnum2str` with the feed orientation of the telescope. `none` is an exception.
* `Nants_data`, `Ntimes`, `Njones`, `Nspws`, `Nfreqs` are lengths of arrays; `Nfreqs` of a wide-band object is 1 (line 1646).
* Left out: warnings, the history, the final `check`.
-/
namespace Verif.CalSort
open Verif.Np Verif.FreqSort
open Verif.Pol (Str)

abbrev Arr3 (α : Type) := List (List (List α))
abbrev Arr4 (α : Type) := List (Arr3 α)

/-- Arrays with a time axis, uvcal.py 2359–2371. -/
structure Times (K : Type) where
  time : Option (List K)
  timeRange : Option (List (K × K))
  lst : Option (List K)
  lstRange : Option (List (K × K))
  center : Option (List Int)
  ref : Option (List Int)
  integ : List K
deriving DecidableEq

/-- A calibration object. For `wide` the second axis of the arrays are spectral windows with ranges, otherwise channels. -/
structure Cal (K V : Type) where
  wide : Bool
  ants : List Int
  freqs : List K
  widths : List K
  ids : List Int
  ranges : List (K × K)
  spws : List Int
  flexJones : Option (List Int)
  times : Times K
  jones : List Int
  main : Arr4 V
  flags : Arr4 Bool
  quality : Option (Arr4 K)
  total : Option (Arr3 K)
deriving DecidableEq

inductive Err where
  | index | string | name | bothTimes | noTimes | freq (e : FreqSort.Err)
deriving DecidableEq

/-- `np.argsort` for the kinds of keys that occur. -/
structure Sorts (K N : Type) [LinearOrder K] [LinearOrder N] where
  int : Argsort Int
  num : Argsort K
  name : Argsort N

/-- `a[idx]`, `a[:, idx]`, `a[:, :, idx]`, `a[:, :, :, idx]`. -/
def ax0 {α : Type} (idx : List Nat) (a : List α) : List α := fancy a idx
def ax1 {α : Type} (idx : List Nat) (a : List (List α)) : List (List α) := a.map (ax0 idx)
def ax2 {α : Type} (idx : List Nat) (a : Arr3 α) : Arr3 α := a.map (ax1 idx)
def ax3 {α : Type} (idx : List Nat) (a : Arr4 α) : Arr4 α := a.map (ax2 idx)

variable {K V N : Type} [Field K] [LinearOrder K] [LinearOrder N]

/-- An index array, or a string with an order for it; uvcal.py 2088–2119, 2324–2352, 2416–2444. -/
def choose (n : Nat) (allowed : List Str) (base : Str → Except Err (List Nat)) : Order → Except Err (List Nat)
  | .idx l => if isIndexPerm l n then .ok (l.map Int.toNat) else .error .index
  | .str s =>
    if s ∈ allowed then
      match base s with
      | .error e => .error e
      | .ok b => .ok (if s.head? = some '-' then b.reverse else b)
    else .error .string
  | .none => .error .string

/-- `[number, name, -number, -name]`, lines 2099 and 2427. -/
def numberOrName : List Str := ["number".toList, "name".toList, "-number".toList, "-name".toList]

/-- Lines 2105–2116. -/
def antBase (so : Sorts K N) (antName : Int → Option N) (ants : List Int) (s : Str) : Except Err (List Nat) :=
  if "number".toList <:+: s then .ok (so.int.run ants)
  else match ants.mapM antName with
    | none => .error .name
    | some names => .ok (so.name.run names)

/-- Lines 2121–2132. -/
def moveAnts (c : Cal K V) (idx : List Nat) : Cal K V :=
  { c with ants := ax0 idx c.ants, main := ax0 idx c.main, flags := ax0 idx c.flags, quality := c.quality.map (ax0 idx) }

/-- `reorder_antennas`, lines 2056–2132. -/
def reorderAnts (so : Sorts K N) (antName : Int → Option N) (c : Cal K V) (o : Order) : Except Err (Cal K V) :=
  match choose c.ants.length numberOrName (antBase so antName c.ants) o with
  | .error e => .error e
  | .ok idx => .ok (match finish idx with | none => c | some idx => moveAnts c idx)

/-- Lines 2224–2234. -/
def wideBase (so : Sorts K N) (c : Cal K V) (s : Str) : Except Err (List Nat) :=
  if "number".toList <:+: s then .ok (so.int.run c.spws)
  else .ok (so.num.run (c.ranges.map (fun r => (r.1 + r.2) / 2)))

/-- Lines 2203–2237: the default order is by number; an index array is turned into positions of window numbers. -/
def wideOrder (so : Sorts K N) (c : Cal K V) : Order → Except Err (List Nat)
  | .none => .ok (so.int.run c.spws)
  | .idx l =>
    if isIndexPerm l c.spws.length then .ok ((fancy c.spws (l.map Int.toNat)).map (fun w => c.spws.idxOf w)) else .error .index
  | .str s => choose c.spws.length ["number".toList, "freq".toList, "-number".toList, "-freq".toList] (wideBase so c) (.str s)

/-- Lines 2256–2269 for a wide-band object. -/
def moveWide (c : Cal K V) (idx : List Nat) : Cal K V :=
  { c with
    spws := ax0 idx c.spws, ranges := ax0 idx c.ranges, flexJones := c.flexJones.map (ax0 idx)
    main := ax1 idx c.main, flags := ax1 idx c.flags, quality := c.quality.map (ax1 idx), total := c.total.map (ax0 idx) }

/-- Lines 2261–2287 for an object with channels. -/
def moveChans (c : Cal K V) (idx : List Nat) : Cal K V :=
  let ids := ax0 idx c.ids
  let newSpws := fancy ids (firstIndices ids)
  { c with
    freqs := ax0 idx c.freqs, widths := ax0 idx c.widths, ids := ids
    main := ax1 idx c.main, flags := ax1 idx c.flags, quality := c.quality.map (ax1 idx), total := c.total.map (ax0 idx)
    spws := if 1 < c.spws.length then newSpws else c.spws
    flexJones := if 1 < c.spws.length then c.flexJones.map (fun j => fancy j (newSpws.map (fun w => c.spws.idxOf w))) else c.flexJones }

/-- `reorder_freqs`, lines 2139–2287. -/
def reorderFreqs (so : Sorts K N) (c : Cal K V) (spwOrder chanOrder : Order) (sel : Option (List Int)) : Except Err (Cal K V) :=
  if c.spws.length = 1 ∧ (c.wide = true ∨ c.freqs.length = 1) then .ok c                       -- 2189–2194
  else if c.wide then
    match wideOrder so c spwOrder with
    | .error e => .error e
    | .ok idx => .ok (moveWide c idx)
  else
    match sortFreq so.int so.num c.freqs c.spws c.ids spwOrder chanOrder sel with
    | .error e => .error (.freq e)
    | .ok none => .ok c                                                                        -- 2251–2253
    | .ok (some idx) => .ok (moveChans c idx)

/-- Lines 2341–2349. -/
def timeBase (so : Sorts K N) (t : Times K) (_ : Str) : Except Err (List Nat) :=
  match t.time, t.timeRange with
  | some _, some _ => .error .bothTimes
  | _, some r => .ok (so.num.run (r.map Prod.fst))
  | some ts, none => .ok (so.num.run ts)
  | none, none => .error .noTimes

/-- Lines 2358–2371. -/
def moveTimesOf (t : Times K) (idx : List Nat) : Times K :=
  { time := t.time.map (ax0 idx), timeRange := t.timeRange.map (ax0 idx), lst := t.lst.map (ax0 idx)
    lstRange := t.lstRange.map (ax0 idx), center := t.center.map (ax0 idx), ref := t.ref.map (ax0 idx), integ := ax0 idx t.integ }

/-- Lines 2358–2378. -/
def moveTimes (c : Cal K V) (idx : List Nat) : Cal K V :=
  { c with
    times := moveTimesOf c.times idx
    main := ax2 idx c.main, flags := ax2 idx c.flags, quality := c.quality.map (ax2 idx), total := c.total.map (ax1 idx) }

/-- `reorder_times`, lines 2294–2378; `Ntimes` is the length of `integration_time`. -/
def reorderTimes (so : Sorts K N) (c : Cal K V) (o : Order) : Except Err (Cal K V) :=
  match choose c.times.integ.length ["time".toList, "-time".toList] (timeBase so c.times) o with
  | .error e => .error e
  | .ok idx => .ok (match finish idx with | none => c | some idx => moveTimes c idx)

/-- Lines 2433–2441. -/
def jonesBase (so : Sorts K N) (jName : Int → Option N) (jones : List Int) (s : Str) : Except Err (List Nat) :=
  if "number".toList <:+: s then .ok (so.int.run jones)
  else match jones.mapM jName with
    | none => .error .name
    | some names => .ok (so.name.run names)

/-- Lines 2450–2460. -/
def moveJones (c : Cal K V) (idx : List Nat) : Cal K V :=
  { c with
    jones := ax0 idx c.jones
    main := ax3 idx c.main, flags := ax3 idx c.flags, quality := c.quality.map (ax3 idx), total := c.total.map (ax2 idx) }

/-- `reorder_jones`, lines 2385–2460. -/
def reorderJones (so : Sorts K N) (jName : Int → Option N) (c : Cal K V) (o : Order) : Except Err (Cal K V) :=
  match choose c.jones.length numberOrName (jonesBase so jName c.jones) o with
  | .error e => .error e
  | .ok idx => .ok (match finish idx with | none => c | some idx => moveJones c idx)

/-- One call of a reordering method. -/
inductive Call where
  | ants (o : Order)
  | freqs (spwOrder chanOrder : Order) (sel : Option (List Int))
  | times (o : Order)
  | jones (o : Order)

def call (so : Sorts K N) (antName jName : Int → Option N) (c : Cal K V) : Call → Except Err (Cal K V)
  | .ants o => reorderAnts so antName c o
  | .freqs s ch sel => reorderFreqs so c s ch sel
  | .times o => reorderTimes so c o
  | .jones o => reorderJones so jName c o

/-- Calls one after the other; the first exception ends the sequence. -/
def calls (so : Sorts K N) (antName jName : Int → Option N) (c : Cal K V) : List Call → Except Err (Cal K V)
  | [] => .ok c
  | q :: qs => match call so antName jName c q with
    | .error e => .error e
    | .ok c' => calls so antName jName c' qs

end Verif.CalSort
