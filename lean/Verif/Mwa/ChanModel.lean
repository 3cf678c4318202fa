import Mathlib.Algebra.Order.Floor.Ring
import Mathlib.Algebra.Order.Field.Basic
import Verif.Np

/-!
# Coarse channels, flags and times of MWA files

Model of the parts of `MWACorrFITS.read_mwa_corr_fits`, `_read_fits_file`, `_read_flag_file`, `flag_init` and `read_metafits`
(`src/pyuvdata/uvdata/mwa_corr_fits.py`) that find the place of a file (111-170, 678-714, 737-740, 1606-1666) and the flags
(535-629, 744-773, 1735-1758).

Coarse channels are numbers, a file has a number, the times it holds and values. Numbers are exact. The polarizations, which are
flagged alike, and warnings are left out.
-/

namespace Verif.Mwa
open Verif.Np

/-! ## Places of files -/

/-- 1615-1620: the channel of each file of the first correlator, in the order of file numbers from 1. -/
def fileChans (coarse : List Nat) : List Nat := coarse.filter (fun c => decide (c ≤ 128)) ++ (coarse.filter (fun c => decide (128 < c))).reverse

/-- `ordered_file_nums` (1621-1627) where `idx` is the result of `argsort`; those of MWAX are channel numbers. -/
def orderedFiles (mwax : Bool) (coarse idx : List Nat) : List Nat := if mwax then coarse else idx.map (fun i => i + 1)

/-- `file_nums` (1630). -/
def fileNums (ordered included : List Nat) : List Nat := ordered.filter (fun f => isin f included)

/-- `spw_inds` (1634). -/
def spwInds (ordered included : List Nat) : List Nat := whereIdx (fun f => isin f included) ordered

/-- `np.where(file_nums == file_num)[0][0]` (680); `none` is an `IndexError`. -/
def blockOf (nums : List Nat) (f : Nat) : Option Nat := (whereIdx (fun g => g == f) nums).head?

section
variable {K : Type} [Field K]

/-- 1654-1666: the frequency of a fine channel of a block. `mid` is the number of coarse channels halved, `nh` the number of fine
channels of a coarse channel that the header gives. -/
def freqOf (center w : K) (nh : Nat) (n : Nat) (spw : List Nat) (b j : Nat) : Option K :=
  (spw[b]?).map (fun (s : Nat) => center + ((s : K) - ((n / 2 : Nat) : K)) * nh * w + j * w)

/-- 130-140: the center of the first fine channel of the middle coarse channel for MWAX, with bandwidth in Hz. -/
def mwaxCenter (cent : Nat) (bandwidth : K) (n nh : Nat) (w : K) : K := cent * (bandwidth / n) - ((nh / 2 : Nat) : K) * w

/-- 1635-1642: windows of blocks. -/
def windowOf (coarse spw : List Nat) (b : Nat) : Option Nat :=
  if (List.range (spw.length - 1)).any (fun k => decide ((spw[k + 1]?).getD 0 - (spw[k]?).getD 0 > 1)) then
    (spw[b]?).bind (fun s => coarse[s]?)
  else some 0

end

/-! ## Values -/

structure DataFile (C : Type) where
  num : Nat
  /-- positions of its times in the array of times -/
  times : List Nat
  /-- time, baseline, fine channel -/
  val : Nat → Nat → Nat → C

section
variable {C : Type} [Zero C] [DecidableEq C]

/-- One file (681-740): values that are not zero are put in place. -/
def readFile (nums : List Nat) (nfc : Nat) (d : Nat → Nat → Nat → C) (x : DataFile C) : Option (Nat → Nat → Nat → C) :=
  (blockOf nums x.num).map (fun b t bl f =>
    if f / nfc = b then
      if (if t ∈ x.times then x.val t bl (f % nfc) else 0) ≠ 0 then (if t ∈ x.times then x.val t bl (f % nfc) else 0) else d t bl f
    else d t bl f)

def readFiles (nums : List Nat) (nfc : Nat) : (Nat → Nat → Nat → C) → List (DataFile C) → Option (Nat → Nat → Nat → C)
  | d, [] => some d
  | d, x :: l => (readFile nums nfc d x).bind (fun d' => readFiles nums nfc d' l)

/-- `flag_array` after all files are read (714, 1717): no file of the block has the time. -/
def missing (nums : List Nat) (l : List (DataFile C)) (t b : Nat) : Bool :=
  !l.any (fun x => decide (blockOf nums x.num = some b) && decide (t ∈ x.times))

/-- 1736-1742. -/
def coarseFlag (propagate : Bool) (miss : Nat → Nat → Bool) (nb nfc t f : Nat) : Bool :=
  if propagate then (List.range nb).any (miss t) else miss t (f / nfc)

end

/-! ## `flag_init` -/

/-- Channels at edges and in the middle (603-613). -/
def badChans (n : Int) (dc : Bool) (nf nfc : Nat) : List Nat :=
  ((List.range n.toNat).flatMap (fun c =>
    (List.range nf).filter (fun i => decide (c ≤ i) && decide ((i - c) % nfc = 0)) ++
      (List.range nf).filter (fun i => decide (0 < i) && decide (i + c + 1 ≤ nf) && decide ((nf - 1 - c - i) % nfc = 0)))) ++
  (if dc then (List.range nf).filter (fun i => decide (nfc / 2 ≤ i) && decide ((i - nfc / 2) % nfc = 0)) else [])

/-- Times at the start and at the end (618-622). -/
def badTime (s e : Int) (nt t : Nat) : Bool := decide ((t : Int) < s) || (decide (0 < e) && decide ((nt : Int) ≤ t + e))

section
variable {K : Type} [Field K] [LinearOrder K] [FloorRing K]

/-- The remainder must not be positive, then the quotient counts (574-592). -/
def numOf (x w : K) : Option Int := if 0 < Int.fract (x / w) * w then none else some ⌊x / w⌋

/-- `flag_init`: what is flagged in addition; `none` is a `ValueError`. -/
def flagInit (edge start fin w int : K) (dc : Bool) (nt nf nfc : Nat) : Option (Nat → Nat → Bool) :=
  match numOf edge w, numOf start int, numOf fin int with
  | some n, some s, some e => some (fun t f => decide (f ∈ badChans n dc nf nfc) || badTime s e nt t)
  | _, _, _ => none

/-- `start_flag="goodtime"` (164-170). -/
def goodStart (good start int : K) : K :=
  if start < good then
    if 0 < Int.fract ((good - start) / int) * int then (1 + ⌊(good - start) / int⌋ : Int) * int else good - start
  else 0

end

/-! ## Flag files and all flags -/

structure FlagFile where
  num : Nat
  len : Nat
  /-- row, fine channel -/
  flag : Nat → Nat → Bool

/-- 763-773. -/
def aoFlag (nums : List Nat) (nblts nfc : Nat) (l : List FlagFile) (r f : Nat) : Bool :=
  l.any (fun x => decide (blockOf nums x.num = some (f / nfc)) && decide (nblts - min x.len nblts ≤ r) &&
    x.flag (r - (nblts - min x.len nblts)) (f % nfc))

end Verif.Mwa
