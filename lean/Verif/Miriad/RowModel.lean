import Mathlib.Data.List.Sort
import Verif.Miriad.SelModel

/-!
# Records of Miriad files and rows of objects

Model of lines 1666-1678 and 2023-2129 of `write_miriad` in `src/pyuvdata/uvdata/miriad.py` and of lines 962-1129, 1139-1140,
1176-1184, 1204-1339 and 1356-1366 of `read_miriad`.

A record has the baseline number, the start of the integration and its length, a polarization, uvw coordinates, data, flags and sample
counts of all channels and whatever else is written with each row (coordinates of the source and so on, `M`). Times are compared
exactly and integrations are not rounded to 32 bits. Rows of one file are ordered by a relation `le` on times, antennas and lengths of
integrations: the code sorts texts. Flags are true where data are flagged; the file holds the negation. `perDay` is the number 1.0027...
times pi over the seconds of a day, for lengths in the same units.
-/

namespace Verif.Miriad

variable {α D U M : Type} [Field α] [LinearOrder α] [DecidableEq U] [DecidableEq M]

/-- Data, flags and sample counts of the channels of one polarization. -/
structure Spec (D : Type) where
  data : List D
  flags : List Bool
  cnt : List D
deriving DecidableEq

/-- A record. -/
structure MRec (α D U M : Type) where
  bl : Nat
  time : α
  int : α
  lst : α
  pol : Int
  uvw : U
  info : M
  spec : Spec D

/-- A row of an object: middle of the integration, its length, LST, antennas, uvw, what else there is, one spectrum per polarization. -/
structure MRow (α D U M : Type) where
  time : α
  int : α
  lst : α
  a1 : Int
  a2 : Int
  uvw : U
  info : M
  specs : List (Spec D)

/-- Start, antennas and length of an integration: what names a row (1120-1127). -/
structure Key (α : Type) where
  time : α
  i : Int
  j : Int
  int : α
deriving DecidableEq

/-- The name of the row of a record. -/
def keyOf (r : MRec α D U M) : Key α := ⟨r.time, (getIJ r.bl).1, (getIJ r.bl).2, r.int⟩

/-- The records of a row (1668, 1676-1678, 2023-2129). -/
def writeRow (perDay : α) (pols : List Int) (b : MRow α D U M) : List (MRec α D U M) :=
  (pols.zip b.specs).map (fun x => ⟨mkbl b.a1.toNat b.a2.toNat, b.time - b.int / 2, b.int, b.lst - perDay * b.int, x.1, b.uvw, b.info, x.2⟩)

/-- `write_miriad`: all records. -/
def writeRows (perDay : α) (pols : List Int) (rows : List (MRow α D U M)) : List (MRec α D U M) := rows.flatMap (writeRow perDay pols)

/-- Polarizations in the order in which they are met (1011-1059). -/
def metPols (l : List Int) : List Int := l.foldl (fun acc p => if p ∈ acc then acc else acc ++ [p]) []

/-- The record that counts for a row and a polarization: the last one (1233-1262). -/
def slot (recs : List (MRec α D U M)) (k : Key α) (p : Int) : Option (MRec α D U M) :=
  (recs.filter (fun r => decide (keyOf r = k ∧ r.pol = p))).getLast?

/-- What is in a cell before a record is put there (1205-1218): zeros that are flagged, with one sample. -/
def emptySpec (zero one : D) (nchan : Nat) : Spec D := ⟨List.replicate nchan zero, List.replicate nchan true, List.replicate nchan one⟩

/-- 1276: a polarization with something that is not flagged. -/
def goodSpec (s : Spec D) : Bool := !s.flags.all (fun f => f)

/-- 1275-1339: uvw and other things of a row from its polarizations: `none` is an error. `u0` and `m0` are the zeros of the arrays. -/
def collapse {X : Type} [DecidableEq X] (x0 : X) (l : List (Option X × Spec D)) : Option X :=
  match l.filter (fun x => goodSpec x.2) with
  | [] => match l with
    | [] => none
    | x :: _ => some (x.1.getD x0)
  | [x] => some (x.1.getD x0)
  | x :: r => if r.all (fun y => decide (y.1.getD x0 = x.1.getD x0)) then some (x.1.getD x0) else none

/-- One row of the object. -/
def buildRow (zero one : D) (nchan : Nat) (z0 : U × M × α) (perDay : α) (pols : List Int) (recs : List (MRec α D U M)) (k : Key α) :
    Option (MRow α D U M) :=
  let cells := pols.map (fun p => ((slot recs k p).map (fun r => (r.uvw, r.info, r.lst)), ((slot recs k p).map MRec.spec).getD (emptySpec zero one nchan)))
  (collapse z0 cells).map (fun c =>
    { time := k.time + k.int / 2, int := k.int, lst := c.2.2 + perDay * k.int, a1 := k.i, a2 := k.j, uvw := c.1, info := c.2.1,
      specs := cells.map Prod.snd })

/-- `read_miriad` with `calc_lst=False`: polarizations and rows. -/
def readRows (le : Key α → Key α → Prop) [DecidableRel le] (zero one : D) (nchan : Nat) (z0 : U × M × α) (perDay : α)
    (recs : List (MRec α D U M)) : Option (List Int × List (MRow α D U M)) :=
  if recs = [] then none
  else if recs.any (fun r => decide (r.spec.data.length ≠ nchan)) then none
  else
    let pols := metPols (recs.map MRec.pol)
    (((recs.map keyOf).dedup.insertionSort le).mapM (buildRow zero one nchan z0 perDay pols recs)).map (fun rows => (pols, rows))

end Verif.Miriad
