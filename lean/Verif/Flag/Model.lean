import Verif.TimeSel.Model

/-!
Model of the flag operations: `apply_uvflag`, `src/pyuvdata/utils/apply_uvflag.py` lines 9–120, and of `to_waterfall`,
`to_baseline`, `to_antenna` and `collapse_pol` of `UVFlag` in flag mode, `src/pyuvdata/uvflag/uvflag.py` lines 1137–1779.

* The flags of one row (or of one time, or of one antenna and time) are a function of channel and polarization; `nf` and
  `np` are the lengths of these axes of the flag array, which matter for broadcasting.
* The comparison of frequencies and telescope metadata (lines 1434–1476, 1664–1705) is a parameter `compat`.
* `tols` are the larger of the two objects' tolerances (lines 1520–1521).
* `antpair2ind` and `get_antpairs` are used through what C16–C18 prove of them: the rows of the pair in increasing
  order, and the pairs that occur.
* Not modelled: metadata, history, `check`.
-/
namespace Verif.Flag
open Verif.Np
open Verif.TimeSel (isclose)

variable {K : Type} [Field K] [LinearOrder K]

/-- Flags as a function of channel and polarization. -/
abbrev Plane := Nat → Nat → Bool

def clear : Plane := fun _ _ => false
def full : Plane := fun _ _ => true

/-- An object with a baseline-time axis: a UVData or a UVFlag of type "baseline". -/
structure Bl (K : Type) where
  pairs : List (Int × Int)
  times : List K
  lsts : List K
  freqs : List K
  pols : List Int
  nf : Nat
  np : Nat
  flags : List Plane

/-- A UVFlag of type "waterfall". -/
structure Wf (K : Type) where
  times : List K
  lsts : List K
  freqs : List K
  pols : List Int
  nf : Nat
  np : Nat
  flags : List Plane

/-- A UVFlag of type "antenna"; `flags[a][t]` are the flags of antenna `a` at time `t` (the array has the axes antenna,
frequency, time, polarization). -/
structure An (K : Type) where
  ants : List Int
  times : List K
  lsts : List K
  freqs : List K
  pols : List Int
  nf : Nat
  np : Nat
  flags : List (List Plane)

inductive Err where
  | compat | pols | times | freqs | shape | index
deriving DecidableEq

/-- `arr[rows] = plane`. -/
def setRows (rows : List Nat) (pl : Plane) (arr : List Plane) : List Plane :=
  arr.mapIdx (fun i x => if rows.contains i then pl else x)

/-- Polarization step of the conversions, lines 1479–1505, 1712–1738: with `force_pol` a single polarization is used for
all. -/
def forcePols (force : Bool) (uvPols pols : List Int) (np : Nat) (flags : List Plane) :
    Except Err (List Int × Nat × List Plane) :=
  let r := if force = true ∧ pols.length = 1 then (uvPols, uvPols.length, flags.map (fun pl f _ => pl f 0))
    else (pols, np, flags)
  if r.1 = uvPols then .ok r else .error .pols

/-- Lines 1509–1524: one step for every distinct time of the waterfall, in increasing order. -/
def fillRows (tols : K × K) (uvTimes : List K) (flags : List Plane) : List (K × Nat) → List Plane → List Plane
  | [], arr => arr
  | (t, i) :: rest, arr =>
    fillRows tols uvTimes flags rest
      (setRows (whereIdx (fun x => isclose tols x t) uvTimes) (flags.getD i clear) arr)

/-- `to_baseline` of a waterfall, lines 1423–1598. -/
def toBaselineWf (compat force : Bool) (tols : K × K) (uv : Bl K) (w : Wf K) : Except Err (Bl K) :=
  if compat = false then .error .compat
  else do
    let p ← forcePols force uv.pols w.pols w.np w.flags
    .ok { uv with
      freqs := w.freqs, nf := w.nf, pols := p.1, np := p.2.1
      flags := fillRows tols uv.times p.2.2 (unique w.times).zipIdx (List.replicate uv.times.length clear) }

/-- Lines 1552–1571 for one row: the flags of the two antennas at the matching time, or all flagged. `ants` and `flags`
include the antennas added in lines 1538–1547. -/
def antRow (tols : K × K) (ants : List Int) (times : List K) (flags : List (List Plane)) (p : Int × Int) (t : K) :
    Except Err Plane :=
  match whereIdx (fun s => isclose tols t s) times with
  | [] => .ok full
  | [k] =>
    match (flags[ants.idxOf p.1]?).bind (fun l => l[k]?), (flags[ants.idxOf p.2]?).bind (fun l => l[k]?) with
    | some a, some b => .ok (fun f q => a f q || b f q)
    | _, _ => .error .index
  | _ => .error .shape

/-- Lines 1538–1547: antennas of the data that the flags do not have are appended, flagged. -/
def addAnts (pairs : List (Int × Int)) (a : An K) : List Int × List (List Plane) :=
  let data := unique (pairs.map (·.1) ++ pairs.map (·.2))
  let new := data.filter (fun x => !a.ants.contains x)
  (a.ants ++ new, a.flags ++ new.map (fun _ => List.replicate a.times.length full))

/-- `to_baseline` of an antenna-type object. -/
def toBaselineAn (compat force : Bool) (tols : K × K) (uv : Bl K) (a : An K) : Except Err (Bl K) :=
  if compat = false then .error .compat
  else do
    let p ← forcePols force uv.pols a.pols a.np []
    let fl := if force = true ∧ a.pols.length = 1 then a.flags.map (fun l => l.map (fun pl f _ => pl f 0)) else a.flags
    let ext := addAnts uv.pairs { a with flags := fl }
    let rows ← (uv.pairs.zip uv.times).mapM (fun r => antRow tols ext.1 a.times ext.2 r.1 r.2)
    .ok { uv with freqs := a.freqs, nf := a.nf, pols := p.1, np := p.2.1, flags := rows }

/-- Pointwise "or" and "and" of planes (`or_collapse`, `and_collapse` along the row axis, C27). -/
def orAll (l : List Plane) : Plane := fun f p => l.any (fun pl => pl f p)
def andAll (l : List Plane) : Plane := fun f p => l.all (fun pl => pl f p)

inductive Method where
  | or | and
deriving DecidableEq

def Method.run : Method → List Plane → Plane
  | .or => orAll
  | .and => andAll

/-- `to_waterfall` of a baseline object, lines 1275–1313. -/
def toWaterfallBl (m : Method) (o : Bl K) : Wf K where
  times := unique o.times
  lsts := (unique o.times).map (fun t => o.lsts.getD (o.times.idxOf t) 0)
  freqs := o.freqs
  pols := o.pols
  nf := o.nf
  np := o.np
  flags := (unique o.times).map (fun t =>
    m.run ((whereIdx (fun x => decide (x = t)) o.times).filterMap (fun i => o.flags[i]?)))

/-- `to_waterfall` of an antenna object, lines 1263–1274. -/
def toWaterfallAn (m : Method) (a : An K) : Wf K where
  times := a.times
  lsts := a.lsts
  freqs := a.freqs
  pols := a.pols
  nf := a.nf
  np := a.np
  flags := (List.range a.times.length).map (fun k => m.run (a.flags.filterMap (fun l => l[k]?)))

/-- `to_antenna` of a waterfall, lines 1649–1753. -/
def toAntenna (compat force : Bool) (ants : List Int) (uvPols : List Int) (w : Wf K) : Except Err (An K) :=
  if compat = false then .error .compat
  else do
    let p ← forcePols force uvPols w.pols w.np w.flags
    .ok { ants := ants, times := w.times, lsts := w.lsts, freqs := w.freqs, pols := p.1, nf := w.nf, np := p.2.1,
          flags := ants.map (fun _ => p.2.2) }

/-! ### `apply_uvflag` -/

/-- Lines 58–76 for an object of type "baseline"; the labels are changed, the flags are not moved. -/
def polStage (force : Bool) (uvd uvf : Bl K) : Except Err (List Int) :=
  let same := uvd.pols.all (fun p => uvf.pols.contains p) && uvf.pols.all (fun p => uvd.pols.contains p)
  let r : Except Err (List Int) := if same then .ok uvf.pols
    else if uvf.pols.length = 1 ∧ force = true then .ok uvd.pols else .error .pols
  r.map (fun ps => ps.map (fun p => ps.getD (uvd.pols.idxOf p) 0))

/-- Lines 80–88: compare the distinct times; `tol` is the largest tolerance. -/
def mismatch (tol : K) (f d : List K) : Bool :=
  if f.length = 1 then false
  else if f.length = d.length then (f.zip d).any (fun p => decide (tol < p.1 - p.2))
  else true

/-- Lines 92–94 for the distinct frequencies; different numbers of distinct frequencies cannot be subtracted. -/
def freqMismatch (tol : K) (f d : List K) : Bool :=
  decide (f.length ≠ d.length) || (f.zip d).any (fun p => decide (tol < p.1 - p.2))

/-- Index on an axis of length `n` when broadcasting. -/
def bidx (n i : Nat) : Nat := if n = 1 then 0 else i

/-- Two axes can be combined: `a` is the axis written to. -/
def fits (a b : Nat) : Bool := b == a || b == 1

/-- `flags[di] += add[fi]` with broadcasting, line 115. -/
def orRows (uvd uvf : Bl K) (di fi : List Nat) (arr : List Plane) : Except Err (List Plane) :=
  if fits di.length fi.length && fits uvd.nf uvf.nf && fits uvd.np uvf.np then
    .ok (arr.mapIdx (fun i x =>
      if di.contains i then
        let pl := ((fi[bidx fi.length (di.idxOf i)]?).bind (fun j => uvf.flags[j]?)).getD clear
        fun f p => x f p || pl (bidx uvf.nf f) (bidx uvf.np p)
      else x))
  else .error .shape

/-- Lines 107–115: one step for every pair of the data. -/
def applyPairs (uvd uvf : Bl K) (missing : Bool) : List (Int × Int) → List Plane → Except Err (List Plane)
  | [], arr => .ok arr
  | ap :: rest, arr =>
    let di := whereIdx (fun q => decide (q = ap)) uvd.pairs
    if uvf.pairs.contains ap then
      match orRows uvd uvf di (whereIdx (fun q => decide (q = ap)) uvf.pairs) arr with
      | .error e => .error e
      | .ok arr => applyPairs uvd uvf missing rest arr
    else applyPairs uvd uvf missing rest (if missing then setRows di full arr else arr)

/-- Lines 78–115. -/
def applyBl (tolT tolF : K) (unflag missing : Bool) (uvd uvf : Bl K) : Except Err (Bl K) :=
  if mismatch tolT (unique uvf.times) (unique uvd.times) then .error .times
  else if uvf.nf = 1 then applyTail else
    if uvf.nf = uvd.nf ∧ freqMismatch tolF (unique uvf.freqs) (unique uvd.freqs) = false then applyTail else .error .freqs
where
  /-- Lines 100–115. -/
  applyTail : Except Err (Bl K) :=
    (applyPairs uvd uvf missing uvd.pairs.dedup (if unflag then uvd.flags.map (fun _ => clear) else uvd.flags)).map
      (fun fl => { uvd with flags := fl })

/-- The flag object given to `apply_uvflag`. -/
inductive FlagObj (K : Type) where
  | bl (o : Bl K)
  | wf (o : Wf K)
  | an (o : An K)

/-- `apply_uvflag` (`uvf.mode` is "flag"). -/
def apply (compat force : Bool) (tols : K × K) (tolT tolF : K) (unflag missing : Bool) (uvd : Bl K) :
    FlagObj K → Except Err (Bl K)
  | .bl o => do
    let ps ← polStage force uvd o
    applyBl tolT tolF unflag missing uvd { o with pols := ps }
  | .wf o => toBaselineWf compat force tols uvd o >>= applyBl tolT tolF unflag missing uvd
  | .an o => toBaselineAn compat force tols uvd o >>= applyBl tolT tolF unflag missing uvd

end Verif.Flag
