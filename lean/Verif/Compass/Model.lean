import Mathlib.Algebra.Field.Basic
import Mathlib.Algebra.Star.Basic
import Mathlib.Algebra.Order.Field.Basic
import Mathlib.Algebra.Order.Group.Abs

/-!
# COMPASS solutions for MIR data

Model of `_read_compass_solns`, `read_compass_solns` and `_apply_compass_solns`
(`/repo/src/pyuvdata/uvdata/mir_parser.py` 3216-3617).

The file is given by its arrays, as functions of positions; lengths of the arrays along antennas, columns (receivers, sideband and window),
times and baselines are those of the lists.  Spectra are functions of the channel; that they are as long as the solutions is not checked in the model
(numpy refuses others).  Arithmetic is exact; `none` is a value that is not finite.  Reading of the file, checks that data are not loaded, and the warning
are not modelled.
-/

namespace Verif.Compass

/-! ## Dictionaries -/

/-- `d[k] = v`. -/
def dset {κ β : Type} [DecidableEq κ] (d : List (κ × β)) (k : κ) (v : β) : List (κ × β) :=
  match d with
  | [] => [(k, v)]
  | x :: d => if x.1 = k then (k, v) :: d else x :: dset d k v

/-- `d[k]`, `none` for a `KeyError`. -/
def dget {κ β : Type} [DecidableEq κ] (d : List (κ × β)) (k : κ) : Option β :=
  match d with
  | [] => none
  | x :: d => if x.1 = k then some x.2 else dget d k

/-- Assigning entries one after the other. -/
def fromEntries {κ β : Type} [DecidableEq κ] (es : List (κ × β)) : List (κ × β) := es.foldl (fun d e => dset d e.1 e.2) []

/-- Antenna, receiver, sideband and window. -/
structure Key where
  ant : Nat
  rx : Nat
  sb : Nat
  chunk : Nat
deriving DecidableEq, Repr

/-- Both antennas and receivers, sideband and window. -/
structure Pair where
  ant1 : Nat
  rx1 : Nat
  ant2 : Nat
  rx2 : Nat
  sb : Nat
  chunk : Nat
deriving DecidableEq, Repr

/-- A column of the arrays in the file. -/
structure Col where
  rx1 : Nat
  rx2 : Nat
  sb : Nat
  chunk : Nat
deriving DecidableEq, Repr

/-- The file. -/
structure File (C K : Type) where
  ants : List Nat
  cols : List Col
  gain : Nat → Nat → Nat → Option C
  sefd : Nat → Nat → Nat → Option K
  mjd : List K
  bls : List (Nat × Nat)
  flagArr : Nat → Nat → Nat → Nat → Nat
  sflag : Nat → Nat → Nat → Nat

/-- A spectral record: its number, number of the integration, and what is seen. -/
structure Rec where
  sphid : Nat
  inhid : Nat
  pair : Pair
deriving DecidableEq, Repr

/-- Gains of an antenna (3298-3313). -/
structure Gain (C K : Type) where
  cal : Nat → C
  calFl : Nat → Bool
  sefd : Nat → K
  sefdFl : Nat → Bool

/-- Solution for a baseline (3357-3362). -/
structure Soln (C K : Type) where
  cal : Nat → C
  calFl : Nat → Bool
  w : Nat → K
  wFl : Nat → Bool

/-- A spectrum. -/
structure Vis (C K : Type) where
  data : Nat → C
  fl : Nat → Bool
  w : Nat → K

/-- Entries of arrays along antennas and columns, in the order of both loops (3298-3299, 3402-3403). -/
def antEntries {C K β : Type} (f : File C K) (g : Nat → Nat → β) : List (Key × β) :=
  f.ants.zipIdx.flatMap fun a => f.cols.zipIdx.map fun c => (⟨a.1, c.1.rx1, c.1.sb, c.1.chunk⟩, g a.2 c.2)

/-- `key1[idx_compare:] != key2[idx_compare:]` (3318-3323, 3409-3413). -/
def comparable (cross : Bool) (a b : Key) : Bool :=
  (cross || a.rx == b.rx) && a.sb == b.sb && a.chunk == b.chunk

/-- `key1[:2] + key2` (3356, 3415). -/
def newKey (a b : Key) : Pair := ⟨a.ant, a.rx, b.ant, b.rx, b.sb, b.chunk⟩

/-- Both loops over a dictionary (3320-3362, 3410-3416). -/
def pairEntries {β γ : Type} (cross : Bool) (d : List (Key × β)) (comb : Key → Key → β → β → γ) : List (Pair × γ) :=
  d.flatMap fun x => (d.filter fun y => comparable cross x.1 y.1).map fun y => (newKey x.1 y.1, comb x.1 y.1 x.2 y.2)

section
variable {C K : Type} [Field C] [Star C] [DecidableEq C] [Field K] [LinearOrder K]

/-- Gains and flags of an antenna (3300-3313): zero and what is not finite is flagged; the array with SEFDs is squared (3294). -/
def mkGain (f : File C K) (i j : Nat) : Gain C K where
  cal k := match f.gain i j k with | some g => if g = 0 then 1 else g | none => 1
  calFl k := match f.gain i j k with | some g => decide (g = 0) | none => true
  sefd k := match f.sefd i j k with | some s => s ^ 2 | none => 0
  sefdFl k := match f.sefd i j k with | some s => decide (s ^ 2 = 0) | none => true

/-- `bandpass_gains` (3298-3313). -/
def bandpass (f : File C K) : List (Key × Gain C K) := fromEntries (antEntries f (mkGain f))

/-- Solution for two antennas (3325-3354); `ab` is the absolute value. -/
def combine (ab : C → C) (k1 k2 : Key) (a b : Gain C K) : Soln C K where
  cal k := if (a.calFl k || b.calFl k) then 0 else if k1 = k2 then (ab (a.cal k * b.cal k))⁻¹ else (a.cal k * star (b.cal k))⁻¹
  calFl k := a.calFl k || b.calFl k
  w k := if (a.sefdFl k || b.sefdFl k) then 0 else (a.sefd k * b.sefd k)⁻¹
  wFl k := a.sefdFl k || b.sefdFl k

/-- `has_cross_pol` (3273-3278). -/
def hasCross (recs : List Rec) : Bool := recs.all fun r => r.pair.rx1 != r.pair.rx2

/-- `bp_gains_corr` (3318-3364). -/
def corr (ab : C → C) (f : File C K) (recs : List Rec) : List (Pair × Soln C K) :=
  fromEntries (pairEntries (hasCross recs) (bandpass f) (combine ab))

/-- `static_flags` (3401-3419), as bytes. -/
def static (f : File C K) (recs : List Rec) : List (Pair × (Nat → Nat)) :=
  fromEntries (pairEntries (hasCross recs) (fromEntries (antEntries f f.sflag)) fun _ _ a b k => a k ||| b k)

/-- `sphid_dict` (3253-3264). -/
def sphidDict (recs : List Rec) : List ((Nat × Pair) × Nat) := fromEntries (recs.map fun r => ((r.inhid, r.pair), r.sphid))

/-- The integration of a time of the file (3382-3385): the first within half a second. -/
def integration (ints : List (Nat × K)) (t : K) : Option Nat :=
  (ints.find? fun x => decide (|t - x.2| ≤ 1 / 2 / 86400)).map (·.1)

/-- `sphid_flags` (3422-3443), as bytes. -/
def sphidFlags (f : File C K) (ints : List (Nat × K)) (recs : List Rec) : List (Nat × (Nat → Nat)) :=
  fromEntries (f.mjd.zipIdx.flatMap fun t => match integration ints t.1 with
    | none => []
    | some inhid => f.bls.zipIdx.flatMap fun b => f.cols.zipIdx.filterMap fun c =>
      (dget (sphidDict recs) (inhid, ⟨b.1.1, c.1.rx1, b.1.2, c.1.rx2, c.1.sb, c.1.chunk⟩)).map fun s => (s, f.flagArr t.2 b.2 c.2))

/-- `np.unpackbits`. -/
def unpack (b : Nat → Nat) (k : Nat) : Bool := (b (k / 8)).testBit (7 - k % 8)

/-- Bandpass of one record (3552-3573). -/
def applyBp (soln : List (Pair × Soln C K)) (p : Pair) (v : Vis C K) : Vis C K :=
  match dget soln p with
  | some s => ⟨fun k => v.data k * s.cal k, fun k => v.fl k || (s.calFl k || s.wFl k), fun k => v.w k * s.w k⟩
  | none => ⟨fun k => v.data k * 1, fun _ => true, fun k => v.w k * 0⟩

/-- Flags of one record (3583-3616). -/
def applyFlags (sf : List (Nat × (Nat → Nat))) (st : List (Pair × (Nat → Nat))) (r : Rec) (v : Vis C K) : Vis C K :=
  match dget sf r.sphid with
  | some b => { v with fl := fun k => v.fl k || unpack b k }
  | none => match dget st r.pair with
    | some b => { v with fl := fun k => v.fl k || unpack b k }
    | none => v

/-- `read_compass_solns` (3482-3500) and `_apply_compass_solns` (3533-3617) for one record of those that are loaded. -/
def calibrate (ab : C → C) (f : File C K) (ints : List (Nat × K)) (recs : List Rec) (loadFlags loadBp : Bool) (r : Rec) (v : Vis C K) : Vis C K :=
  let v := if loadBp then applyBp (corr ab f recs) r.pair v else v
  if loadFlags then applyFlags (sphidFlags f ints recs) (static f recs) r v else v

end

end Verif.Compass
