import Verif.GetData.Model

/-!
Model of the two index caches of `UVData` (src/pyuvdata/uvdata/uvdata.py): `__antpair2ind_cache` (2627, 2676) and
`__key2ind_cache` (2726, 2835), and of the attribute setters that clear them (197, 210, 255, 634–643; the setter
runs on assignment, uvbase.py 257–261, and after selection, uvdata.py 7084).
-/
namespace Verif.Cache
open Verif.GetData
open Verif.Slices (SlicifyOut slicify)
open Verif.AntPair (antpair2ind)
open Verif.Baseline (baselineToAntnums)
open Verif.Pol (Str polstr2num)

/-- A dictionary: the first matching entry counts. -/
def lookup {α β : Type} [DecidableEq α] (d : List (α × β)) (k : α) : Option β :=
  (d.find? (fun e => decide (e.1 = k))).map Prod.snd

/-- An object with its two caches. -/
structure St where
  o : Obj
  antCache : List ((Nat × Nat × Bool) × SlicifyOut)
  keyCache : List (Key × Inds)

/-- `antpair2ind` with its cache, uvdata.py 2622–2677. -/
def askPair (s : St) (a b : Nat) (ordered : Bool) : St × Except Baseline.Err SlicifyOut :=
  let ordered := ordered || decide (a = b)                                    -- 2623–2624
  match lookup s.antCache (a, b, ordered) with                                -- 2627–2628
  | some v => (s, .ok v)
  | none =>
    match antpair2ind s.o.pairs a b ordered with
    | .error e => (s, .error e)
    | .ok v => ({ s with antCache := ((a, b, ordered), v) :: s.antCache }, .ok v)    -- 2676

/-- Store a successful result, uvdata.py 2835. -/
def remember (s : St) (key : Key) : Except Err Inds → St × Except Err Inds
  | .error e => (s, .error e)
  | .ok i => ({ s with keyCache := (key, i) :: s.keyCache }, .ok i)

/-- The antenna-pair part of `_key2inds`, uvdata.py 2761–2836: two cached lookups; the result is stored under
`key`. -/
def askRows (s : St) (key : Key) (a b : Nat) (p : Option PolArg) : St × Except Err Inds :=
  match askPair s a b true with                                               -- 2763
  | (s1, .error _) => (s1, .error .number)
  | (s1, .ok b1) =>
    if a = b then remember s1 key (combine s1.o p b1 .none)                   -- 2764–2765
    else
      match askPair s1 b a true with                                          -- 2767
      | (s2, .error _) => (s2, .error .number)
      | (s2, .ok b2) => remember s2 key (combine s2.o p b1 b2)

/-- `_key2inds` with its cache, uvdata.py 2720–2836.  A number is looked up as a one-element tuple but stored as a
number (polarization) or as the pair it stands for (baseline), so it is never found itself. -/
def askKey (s : St) (key : Key) : St × Except Err Inds :=
  match key with
  | .int n =>
    if n < 5 then (s, byPol s.o n)
    else
      match baselineToAntnums s.o.pairs.nants [n] with
      | .ok ([a], [b]) => askRows s (.pair a.toNat b.toNat) a.toNat b.toNat none
      | _ => (s, .error .number)
  | .polName n =>
    match lookup s.keyCache (.polName n) with
    | some i => (s, .ok i)
    | none =>
      match polstr2num s.o.xo n with
      | none => (s, .error .unknownPol)
      | some p => remember s (.polName n) (byPol s.o p)
  | .pair a b =>
    match lookup s.keyCache (.pair a b) with
    | some i => (s, .ok i)
    | none => askRows s (.pair a b) a b none
  | .pairPol a b p =>
    match lookup s.keyCache (.pairPol a b p) with
    | some i => (s, .ok i)
    | none => askRows s (.pairPol a b p) a b (some p)

/-- `ant_1_array = l`: both caches are emptied, uvdata.py 197, 635–638. -/
def setAnt1 (s : St) (l : List Nat) : St :=
  { o := { s.o with pairs := { s.o.pairs with ant1 := l } }, antCache := [], keyCache := [] }

/-- `ant_2_array = l`, uvdata.py 210, 635–638. -/
def setAnt2 (s : St) (l : List Nat) : St :=
  { o := { s.o with pairs := { s.o.pairs with ant2 := l } }, antCache := [], keyCache := [] }

/-- `polarization_array = l`: the key cache is emptied, uvdata.py 255, 641–643. -/
def setPols (s : St) (l : List Int) : St :=
  { s with o := { s.o with pols := l }, keyCache := [] }

/-- Assignments that clear no cache: `baseline_array`, `Nbls`, `Ntimes`, `telescope.Nants`,
`blts_are_rectangular`, `time_axis_faster_than_bls`. -/
def setLayout (s : St) (bl : List Nat) (nbls ntimes nants : Nat) (rect timeFaster : Bool) : St :=
  { s with o := { s.o with pairs := { s.o.pairs with bl, nbls, ntimes, nants, rect, timeFaster } } }

/-- `telescope.x_orientation = xo`, which clears no cache either. -/
def setOrientation (s : St) (xo : Option Str) : St := { s with o := { s.o with xo } }

/-- `get_data` through the caches, uvdata.py 3104, 3112. -/
def getDataCached {V : Type} (cj : V → V) (s : St) (data : List (List V)) (key : Key) :
    St × Except Err (List (List V)) :=
  match askKey s key with
  | (s', .error e) => (s', .error e)
  | (s', .ok i) => (s', smartSlice cj data s.o.pols.length i)

end Verif.Cache
