import Verif.BltAxis.Model
import Verif.Baseline.Model
import Verif.Pol.Model
import Mathlib.Algebra.Order.Field.Basic
import Mathlib.Data.Prod.Lex

/-!
Model of `new_uvdata` and its helpers, `src/pyuvdata/uvdata/initializers.py`: `get_time_params` (20–83), `get_freq_params` (86–114),
`get_baseline_params` (117–123), `configure_blt_rectangularity` (126–227), `get_spw_params` (252–278) and the part of `new_uvdata`
(517–621) that makes the axes, windows and polarizations.

Times and frequencies are elements of an ordered field. `get_lst_for_time` is a function of one time, given by the caller. Times are one
number each (`new_uvdata`; `new_uvcal` also uses ranges). Antenna numbers are natural numbers. Checks of types, the telescope, the
catalog, uvws, the data arrays and the final `check` are not modelled.
-/
namespace Verif.NewData
open Verif.Np
open Verif.Baseline (antnumsToBaseline)
open Verif.BltAxis (determineRectangularity)

variable {K : Type} [Field K] [LinearOrder K]

/-- Exceptions: lengths differ (73–81, 111), ambiguous or repeated times and pairs (144–172), not rectangular (190), `times[1]` (200), baseline
numbers (121, 207), lengths of times and pairs (549), names of polarizations (577). -/
inductive Err
  | length | times | antpairs | ambiguous | notRect | index | number | rows | pol
  deriving DecidableEq

/-- A parameter that may be left out, one number or an array. -/
inductive Num (K : Type)
  | none
  | one (x : K)
  | all (l : List K)

/-- `np.diff`. -/
def diffs (l : List K) : List K := List.zipWith (fun a b => b - a) l l.tail

/-- The difference of successive entries with the last one repeated, lines 51–54 and 95–96. -/
def gaps (l : List K) : List K := diffs l ++ (diffs l).getLast?.toList

/-- Integration times, lines 45–66. -/
def inferTimes (times : List K) : Num K → List K
  | .none =>
    let ut := unique times                                                          -- 49
    if 1 < ut.length then gaps (ut.map (· * 86400)) else [1]                        -- 50–60
  | .one x => times.map (fun _ => x)                                                -- 66
  | .all l => l

/-- `get_time_params`, lines 31–83: sidereal times and integration times. -/
def timeParams (lst : K → K) (times : List K) (intg : Num K) : Except Err (List K × List K) :=
  if (inferTimes times intg).length ≠ times.length then .error .length              -- 80–81
  else .ok (times.map lst, inferTimes times intg)

/-- Widths of channels, lines 93–104. -/
def inferWidths (freqs : List K) : Num K → List K
  | .none => if 1 < freqs.length then gaps freqs else [1]                           -- 94–102
  | .one x => freqs.map (fun _ => x)                                                -- 104
  | .all l => l

/-- `get_freq_params`, lines 93–114: widths of the channels. -/
def freqParams (freqs : List K) (width : Num K) : Except Err (List K) :=
  if (inferWidths freqs width).length ≠ freqs.length then .error .length            -- 111–112
  else .ok (inferWidths freqs width)

/-- `np.unique(antpairs, axis=0)`: rows in lexicographic order. -/
def uniquePairs (l : List (Nat × Nat)) : List (Nat × Nat) := (unique (l.map toLex)).map ofLex

/-- `np.tile(l, n)`. -/
def tile {β : Type} (n : Nat) (l : List β) : List β := (List.replicate n l).flatten

/-- `np.repeat(l, n)`. -/
def rep {β : Type} (n : Nat) (l : List β) : List β := l.flatMap (fun x => List.replicate n x)

/-- What `configure_blt_rectangularity` returns. -/
structure Rows (K : Type) where
  nbl : Nat
  nt : Nat
  rect : Bool
  timeFaster : Option Bool
  times : List K
  antpairs : List (Nat × Nat)
  lst : List K
  intg : List K

/-- Lines 142–165: is the outer product meant. -/
def wantOuter (times : List K) (antpairs : List (Nat × Nat)) : Option Bool → Except Err Bool
  | some b => .ok b
  | none =>
    let nt := (unique times).length
    let nbl := (uniquePairs antpairs).length
    if times.length ≠ antpairs.length then
      if nt ≠ times.length then .error .times                                       -- 144–147
      else if nbl ≠ antpairs.length then .error .antpairs                           -- 148–152
      else .ok true                                                                 -- 155
    else if nbl ≠ antpairs.length ∨ nt ≠ times.length then .ok false                -- 156–157
    else .error .ambiguous                                                          -- 158–165

/-- `configure_blt_rectangularity`, lines 126–227, with the two arrays `time_sized_arrays` that `new_uvdata` gives. -/
def configure (times : List K) (antpairs : List (Nat × Nat)) (outer rect timeFaster : Option Bool) (lst intg : List K) : Except Err (Rows K) :=
  let ut := unique times                                                            -- 138
  let ua := uniquePairs antpairs                                                    -- 139
  let nt := ut.length
  let nbl := ua.length
  match wantOuter times antpairs outer with
  | .error e => .error e
  | .ok true =>
    if nt ≠ times.length then .error .times                                         -- 169
    else if nbl ≠ antpairs.length then .error .antpairs                             -- 171
    else if timeFaster.getD false then                                              -- 174–175
      .ok ⟨nbl, nt, true, some true, tile nbl ut, rep nt ua, tile nbl lst, tile nbl intg⟩              -- 180–182
    else
      .ok ⟨nbl, nt, true, some false, rep nbl times, tile nt antpairs, rep nbl lst, rep nbl intg⟩      -- 184–186
  | .ok false =>
    match rect with
    | some true =>
      if times.length ≠ antpairs.length ∨ times.length ≠ nt * nbl then .error .notRect                 -- 190–194
      else match times[0]?, times[1]? with
        | some a, some b => .ok ⟨nbl, nt, true, some (decide (0 < |b - a|)), times, antpairs, lst, intg⟩    -- 200
        | _, _ => .error .index
    | some false => .ok ⟨nbl, nt, false, none, times, antpairs, lst, intg⟩          -- 203
    | none =>
      match antnumsToBaseline (some (unique (ua.flatMap (fun p => [p.1, p.2]))).length) false false
          (antpairs.map (fun p => (p.1 : Int))) (antpairs.map (fun p => (p.2 : Int))) with              -- 207–211
      | .error _ => .error .number
      | .ok b =>
        let r := determineRectangularity times b nbl nt none                        -- 213–217
        .ok ⟨nbl, nt, r.1, some r.2, times, antpairs, lst, intg⟩

/-- `itertools.combinations_with_replacement(l, 2)`. -/
def pairsOf : List Nat → List (Nat × Nat)
  | [] => []
  | a :: l => (a :: l).map (fun b => (a, b)) ++ pairsOf l

/-- `get_spw_params`, lines 259–278, as `new_uvdata` calls it (`spw_array` is left out): the windows of the channels and the list of windows. -/
def spwParams (nfreqs : Nat) : Option (List Int) → List Int × List Int
  | none => (List.replicate nfreqs 0, [0])                                          -- 260–262
  | some f => (f, unique f)                                                         -- 270–271

/-- The axes of the new object. -/
structure New (K : Type) where
  times : List K
  lst : List K
  intg : List K
  ant1 : List Nat
  ant2 : List Nat
  bl : List Nat
  nbls : Nat
  ntimes : Nat
  order : Option (List BltAxis.Key)

/-- The baseline-time axis of `new_uvdata`, lines 517–565 and 596–614; `nants` are the numbers of the antennas of the telescope. -/
def newRows (lst : K → K) (nants : List Nat) (times : List K) (antpairs : Option (List (Nat × Nat))) (intg : Num K) (outer rect timeFaster : Option Bool) :
    Except Err (New K) :=
  match timeParams lst times intg with                                              -- 517–522
  | .error e => .error e
  | .ok (l, i) =>
    let pairs := antpairs.getD (pairsOf nants)                                      -- 524–529
    let outer := if antpairs.isNone then some true else outer                       -- 527
    match configure times pairs outer rect timeFaster l i with
    | .error e => .error e
    | .ok r =>
      if outer ≠ some true ∧ r.times.length ≠ r.antpairs.length then .error .rows   -- 548–550
      else
        match antnumsToBaseline (some nants.length) false false
            (r.antpairs.map (fun p => (p.1 : Int))) (r.antpairs.map (fun p => (p.2 : Int))) with       -- 560–562
        | .error _ => .error .number
        | .ok b =>
          .ok ⟨r.times, r.lst, r.intg, r.antpairs.map Prod.fst, r.antpairs.map Prod.snd, b, r.nbl, r.nt,
            if antpairs.isNone && r.rect then                                        -- 552–558
              if r.timeFaster.getD false then some [.ant1, .ant2] else some [.time, .ant1]
            else none⟩

/-- Polarizations given by name, lines 575–579: the names are read with the argument `x_orientation`. -/
def newPols (xo : Option Pol.Str) (names : List Pol.Str) : Except Err (List Int) :=
  match names.mapM (Pol.polstr2num xo) with
  | none => .error .pol
  | some l => .ok l

end Verif.NewData
