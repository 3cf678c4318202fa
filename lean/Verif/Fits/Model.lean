import Mathlib.Algebra.Order.Field.Basic
import Mathlib.Algebra.Order.Ring.Abs
import Mathlib.Algebra.BigOperators.Group.List.Basic
import Mathlib.Data.List.Sort
import Verif.Np

/-!
Model of uvfits files, `src/pyuvdata/uvdata/uvfits.py`: of `write_uvfits` lines 881–999 (checks, frequencies, polarizations and values) with
`_check_flex_spw_contiguous` and `_check_freq_spacing`, `src/pyuvdata/utils/frequency.py` lines 30–125, and `_test_array_constant`,
`src/pyuvdata/utils/tools.py` lines 184–268; of `read_uvfits` lines 413–463 and of `_get_data` lines 245–346, with `_gethduaxis`,
`src/pyuvdata/utils/io/fits.py` lines 26–32.

The file is what is kept in it: the numbers of the axes, the frequency table if there is one, and one triple for each group, window, channel and
polarization. Numbers are in an ordered field; the single precision of the column of channel widths is a rounding function. Tolerances are
absolute, as for these parameters. Values are functions of positions. Left out: the other checks of `check`, phasing to zenith with `force_phase`,
files without the axis of windows, and warnings.
-/
namespace Verif.Fits

variable {K : Type}

/-- What is written, with row, channel and polarization as positions; a visibility is its real and imaginary part. -/
structure Obj (K : Type) where
  nblts : Nat
  freqs : List K
  widths : List K
  spws : List Int
  chanSpw : List Int
  pols : List Int
  data : Nat → Nat → Nat → K × K
  flags : Nat → Nat → Nat → Bool
  nsamp : Nat → Nat → Nat → K

/-- What is in the file. -/
structure File (K : Type) where
  nblts : Nat
  nspws : Nat
  nchan : Nat
  npols : Nat
  polVal : Int
  polDelta : Int
  refFreq : K
  freqDelta : K
  table : Option (List K × List K)
  groups : Nat → Nat → Nat → Nat → K × K × K

inductive WErr where
  | assert | interspersed | spacing | width | empty | sizes | negative | zero | pols
deriving DecidableEq

section
variable [Field K] [LinearOrder K]

/-- `array[flex_spw_id_array == idx]`. -/
def winVals {α : Type} (l : List α) (ids : List Int) (s : Int) : List α := ((l.zip ids).filter (fun p => decide (p.2 = s))).map Prod.fst

/-- `np.diff`. -/
def diffs (l : List K) : List K := (l.zip l.tail).map fun p => p.2 - p.1

/-- `np.median`. -/
def median (l : List K) : K :=
  let s := l.insertionSort (· ≤ ·)
  (s.getD ((l.length - 1) / 2) 0 + s.getD (l.length / 2) 0) / 2

/-- `np.mean`. -/
def mean (l : List K) : K := l.sum / l.length

/-- `np.sign`. -/
def sign (x : K) : K := if 0 < x then 1 else if x < 0 then -1 else 0

/-- `_test_array_constant`, lines 217–227. -/
def isConst (tol : K) (l : List K) : Bool :=
  match l.min?, l.max? with
  | some a, some b => decide (a = b) || decide (|a - b| ≤ tol)
  | _, _ => true

/-- `_check_flex_spw_contiguous`, lines 30–46. The two lists of different values are compared in sorted order. -/
def contiguous (spws chanSpw : List Int) : Except WErr Unit :=
  if (chanSpw.dedup.insertionSort (· ≤ ·)) ≠ (spws.dedup.insertionSort (· ≤ ·)) then .error .assert
  else if ((chanSpw.zip chanSpw.tail).filter (fun p => decide (p.1 ≠ p.2))).length + 1 ≠ spws.length then .error .interspersed
  else .ok ()

/-- The errors of one window in `_check_freq_spacing`, lines 97–111: uneven, and not apart by the width. -/
def winErr (ftol wtol : K) (f w : List K) : Bool × Bool :=
  if 1 < f.length then
    let dir : K := if (diffs f).all (fun x => decide (x < 0)) then -1 else 1
    if !isConst wtol w then (true, false)
    else (!isConst ftol (diffs f), (diffs f).any fun x => !(decide (|x - mean w * dir| ≤ wtol)))
  else (false, false)

/-- `_check_freq_spacing`, lines 89–125. -/
def spacing (ftol wtol : K) (o : Obj K) : Except WErr Unit :=
  match contiguous o.spws o.chanSpw with
  | .error e => .error e
  | .ok _ =>
    let errs := o.spws.map fun s => winErr ftol wtol (winVals o.freqs o.chanSpw s) (winVals o.widths o.chanSpw s)
    if errs.any (fun e => e.1) then .error .spacing
    else if errs.any (fun e => e.2) then .error .width
    else .ok ()

/-- Lines 913–919: the first frequency of a window and its step. -/
def winLine (o : Obj K) (s : Int) : Option (K × K) :=
  match (winVals o.freqs o.chanSpw s).head? with
  | none => none
  | some f => some (f, median (winVals o.widths o.chanSpw s) *
      (if 1 < (winVals o.freqs o.chanSpw s).length then sign (median (diffs (winVals o.freqs o.chanSpw s))) else 1))

/-- The order of polarizations in the file: by absolute value, lines 953–966. Numbers of the same absolute value stay in order, which the code leaves
open. -/
def polOrder (pols : List Int) : List Nat :=
  (List.range pols.length).insertionSort (fun i j => (pols.getD i 0).natAbs ≤ (pols.getD j 0).natAbs)

/-- `_test_array_constant_spacing` with no tolerance. -/
def evenly (l : List Int) : Bool :=
  decide (l.length ≤ 2) || ((l.zip l.tail).map fun p => p.2 - p.1).all fun x => decide (some x = ((l.zip l.tail).map fun p => p.2 - p.1).head?)

/-- `write_uvfits` after its checks, lines 907–999; `rd` is the rounding of the column of widths. -/
def write (rd : K → K) (o : Obj K) : Except WErr (File K) :=
  match o.spws.mapM (winLine o) with
  | none => .error .empty
  | some lines =>
    let sizes := o.spws.map fun s => (winVals o.freqs o.chanSpw s).length
    match lines with
    | [] => .error .empty
    | (f0, d0) :: _ =>
      if sizes.any (fun n => decide (n ≠ sizes.headD 0)) then .error .sizes
      else if lines.any (fun l => decide (l.1 ≤ 0)) then .error .negative
      else if lines.any (fun l => decide (l.2 = 0)) then .error .zero
      else
        let ps := (polOrder o.pols).map fun i => o.pols.getD i 0
        if 1 < o.pols.length ∧ evenly ps = false then .error .pols
        else
          let nchan := o.freqs.length / o.spws.length
          .ok {
            nblts := o.nblts, nspws := o.spws.length, nchan := nchan, npols := o.pols.length
            polVal := ps.getD 0 0
            polDelta := if 1 < o.pols.length then ps.getD 1 0 - ps.getD 0 0 else 1
            refFreq := f0, freqDelta := d0
            table := if 1 < o.spws.length then some (lines.map (fun l => l.1 - f0), lines.map (fun l => rd l.2)) else none
            groups := fun b w c p =>
              let q := (polOrder o.pols).getD p 0
              ((o.data b (w * nchan + c) q).1, -(o.data b (w * nchan + c) q).2,
                o.nsamp b (w * nchan + c) q * (if o.flags b (w * nchan + c) q then -1 else 1)) }

/-- `read_uvfits`, lines 413–463: the labels of a file. -/
def readFreqs (f : File K) : List K :=
  match f.table with
  | some t => (List.range f.nspws).flatMap fun (w : Nat) => (List.range f.nchan).map fun (c : Nat) => f.refFreq + t.1.getD w 0 + c * t.2.getD w 0
  | none => (List.range f.nchan).map fun (c : Nat) => f.freqDelta * c + f.refFreq

def readWidths (f : File K) : List K :=
  match f.table with
  | some t => (List.range f.nspws).flatMap fun (w : Nat) => List.replicate f.nchan |t.2.getD w 0|
  | none => List.replicate f.nchan f.freqDelta

def readPols (f : File K) : List Int := (List.range f.npols).map fun (i : Nat) => f.polDelta * i + f.polVal

/-- `_get_data` without a selection, lines 262–272 and 337–346: the axes of windows and channels are put together. -/
def read (f : File K) : Obj K where
  nblts := f.nblts
  freqs := readFreqs f
  widths := readWidths f
  spws := (List.range f.nspws).map fun (w : Nat) => (w : Int)
  chanSpw := (List.range f.nspws).flatMap fun (w : Nat) => List.replicate f.nchan (w : Int)
  pols := readPols f
  data := fun b k p => ((f.groups b (k / f.nchan) (k % f.nchan) p).1, -(f.groups b (k / f.nchan) (k % f.nchan) p).2.1)
  flags := fun b k p => decide ((f.groups b (k / f.nchan) (k % f.nchan) p).2.2 ≤ 0)
  nsamp := fun b k p => |(f.groups b (k / f.nchan) (k % f.nchan) p).2.2|

end

end Verif.Fits
