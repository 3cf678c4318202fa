import Mathlib.Algebra.Star.Basic
import Verif.Np

/-!
# Visibilities of the first MWA correlator

Model of `pfb_mapper`, `input_output_mapping` and `generate_map` (`src/pyuvdata/uvdata/corr_fits.pyx` 28-120) and of the parts of
`MWACorrFITS` that put visibilities in place: lines 60-93 of `src/pyuvdata/uvdata/mwa_corr_fits.py` (antennas in the order of their
correlator numbers), 1584-1604 (antenna pairs), 1668-1686 (polarizations, inputs), 715-734 (the map is applied to a file) and 1831.

There are 128 antennas with two polarizations each, as in the loops of `generate_map`. A file holds numbers in a ring with
conjugation; time and channel, which are the same for all of this, are left out, as are corrections of the values.
-/

namespace Verif.Mwa
open Verif.Np

/-- `pfb_mapper`. -/
def pfb (i : Nat) : Nat := i / 4 + i % 4 * 16

/-- The dict of `input_output_mapping`, in the order in which entries are set. -/
def ioList : List (Nat × Nat) := (List.range 4).flatMap (fun p => (List.range 64).map (fun i => (pfb i + p * 64, p * 64 + i)))

/-- A look-up: the last entry that was set. -/
def inToOut (x : Nat) : Option Nat := ioList.reverse.lookup x

/-- `corr_ants_to_pfb_inputs` (1681-1686): the last position of the antenna counts. -/
def antsToPf (inds : List Nat) (a p : Nat) : Option Nat := (whereIdx (fun b => b == a) inds).getLast?.map (fun i => 2 * i + p)

/-- 80-81 and 109. -/
def cell (a1 a2 p1 p2 : Nat) : Nat := (128 * a1 - a1 * (a1 + 1) / 2 + a2) * 4 + (2 * p1 + p2)

/-- 83-118: where the data are and whether to conjugate; `none` is a `KeyError`. -/
def entry (inds : List Nat) (a1 a2 p1 p2 : Nat) : Option (Nat × Bool) :=
  match antsToPf inds a1 p1, antsToPf inds a2 p2 with
  | some i1, some i2 => match inToOut i1, inToOut i2 with
    | some o1, some o2 =>
      if o2 > o1 then some (2 * (o2 / 2) * (o2 / 2 + 1) + 4 * (o1 / 2) + 2 * (o2 % 2) + o1 % 2, true)
      else some (2 * (o1 / 2) * (o1 / 2 + 1) + 4 * (o2 / 2) + 2 * (o1 % 2) + o2 % 2, false)
    | _, _ => none
  | _, _ => none

/-- The loops of `generate_map`. -/
def quads : List (Nat × Nat × Nat × Nat) :=
  (List.range 128).flatMap (fun a1 => (List.range' a1 (128 - a1)).flatMap (fun a2 => (List.range 2).flatMap (fun p1 =>
    (List.range 2).map (fun p2 => (a1, a2, p1, p2)))))

/-- What is set, in order: cell, position of the data, conjugation. -/
def writes (inds : List Nat) : Option (List (Nat × Nat × Bool)) :=
  quads.mapM (fun q => (entry inds q.1 q.2.1 q.2.2.1 q.2.2.2).map (fun e => (cell q.1 q.2.1 q.2.2.1 q.2.2.2, e)))

/-- `generate_map`: the two arrays. -/
def genMap (inds : List Nat) : Option (Nat → Nat × Bool) :=
  (writes inds).map (fun w k => ((w.filter (fun x => decide (x.1 = k))).getLast?.map (fun x => x.2)).getD (0, false))

/-- Polarizations in files (1672). -/
def filePols : List Int := [-6, -8, -7, -5]

/-- `itertools.combinations_with_replacement(l, 2)`. -/
def combos {α : Type} : List α → List (α × α)
  | [] => []
  | x :: l => (x :: l).map (fun y => (x, y)) ++ combos l

variable {C : Type} [Mul C] [Star C]

/-- 717-719: the data of a file in the order of antennas. -/
def mapped (m : Nat → Nat × Bool) (file : Nat → C) (k : Nat) : C := if (m k).2 then star (file (m k).1) else file (m k).1

/-- The visibility of a baseline at a position of the axis of polarizations, which are taken by `idx` (734); everything is conjugated
at the end (1831). -/
def vis (m : Nat → Nat × Bool) (idx : List Nat) (file : Nat → C) (bl j : Nat) : Option C :=
  (idx[j]?).map (fun k => star (mapped m file (bl * 4 + k)))

/-- The axis of polarizations (1674-1676), where `idx` sorts them by their magnitude. -/
def polArr (idx : List Nat) : Option (List Int) := take? filePols idx

/-- Antenna numbers of the rows of a time (87-93, 1584-1593). -/
def antPairs (tiles : List Nat) (order : List Nat) : Option (List (Nat × Nat)) := (take? tiles order).map combos

end Verif.Mwa
