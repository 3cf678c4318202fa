import Verif.Fits.Model

/-!
Model of beamfits files, `src/pyuvdata/uvbeam/beamfits.py`: of `write_beamfits` lines 535–573, 603–706, 728–736 and 845–884 and of `read_beamfits` lines
104–339 and 456–496, with the numbers of axes of lines 20–36, `_test_array_constant` and `_test_array_constant_spacing`,
`src/pyuvdata/utils/tools.py` lines 184–268, and `_gethduaxis`, `src/pyuvdata/utils/io/fits.py` lines 26–32.

The main array of the file is a shape and a function of lists of positions, both in the order of numpy, so that axis number `k` of the format is the
`k`-th from the end. The place on the sky is a list of positions: two for images and one for healpix maps. Numbers are in an ordered field, in which
degrees and radians are exact multiples of each other. Left out: the checks of `check`, headers, basis vectors, units of files from other programs, and
files with less axes. The columns of the table of frequencies are lists.
-/
namespace Verif.BeamFits

open Verif.Fits

/-- A beam. The place `s` is `[i2, i1]` for images and `[pixel]` for healpix maps; `cplx` tells if the numbers are complex. -/
structure Beam (K : Type) where
  healpix : Bool
  efield : Bool
  cplx : Bool
  axis1 : List K
  axis2 : List K
  pixels : List Int
  freqs : List K
  nvec : Nat
  pols : List Int
  feeds : List (List Char)
  cols : List (List Char × List K)
  data : Nat → Nat → Nat → List Nat → K × K

structure BFile (K : Type) where
  healpix : Bool
  efield : Bool
  /-- First value and step, in degrees. -/
  ax1 : K × K
  ax2 : K × K
  pixels : List Int
  freq : K × K
  pol : Int × Int
  feeds : List (List Char)
  cols : List (List Char × List K)
  shape : List Nat
  val : List Nat → K

inductive BErr where
  | freqs | axis1 | axis2 | pols | windows | npix | squeeze | dims | empty | range
deriving DecidableEq

/-- Tolerances: of frequencies, and relative and absolute ones of axes. -/
structure BTol (K : Type) where
  ftol : K
  rtol : K
  atol : K
  /-- Degrees of a radian. -/
  deg : K

variable {K : Type} [Field K] [LinearOrder K]

/-- `_test_array_constant` with two tolerances. -/
def isConstR (rtol atol : K) (l : List K) : Bool :=
  match l.min?, l.max? with
  | some a, some b => decide (a = b) || decide (|a - b| ≤ atol + rtol * |b|)
  | _, _ => true

/-- Number of the axis of frequencies in the format; the next ones are polarizations or feeds, windows, vectors and complex. -/
def axFreq (healpix : Bool) : Nat := if healpix then 2 else 3

/-- `NAXISk`. -/
def naxis (shape : List Nat) (k : Nat) : Nat := shape.reverse.getD (k - 1) 1

/-- The numbers of places. -/
def Beam.space (b : Beam K) : List Nat := if b.healpix then [b.pixels.length] else [b.axis2.length, b.axis1.length]

def Beam.np (b : Beam K) : Nat := if b.efield then b.feeds.length else b.pols.length

/-- Lines 553–573: first value and step of an axis of an image, in degrees. -/
def axisOf (T : BTol K) (e : BErr) (l : List K) : Except BErr (K × K) :=
  match l with
  | [] => .error .empty
  | [x] => .ok (x * T.deg, 1 * T.deg)
  | x :: y :: t =>
    if decide ((x :: y :: t).length ≤ 2) || isConstR T.rtol T.atol (diffs (x :: y :: t)) then .ok (x * T.deg, (y - x) * T.deg) else .error e

/-- Lines 535–547. -/
def freqOf (T : BTol K) (l : List K) : Except BErr (K × K) :=
  match l with
  | [] => .error .empty
  | [x] => .ok (x, 1)
  | x :: y :: t => if isConst T.ftol (diffs (x :: y :: t)) then .ok (x, y - x) else .error .freqs

/-- Lines 643–656. -/
def polOf (b : Beam K) : Except BErr (Int × Int) :=
  if b.efield then .ok (1, 1)
  else match b.pols with
  | [] => .error .empty
  | [p] => .ok (p, 1)
  | p :: q :: t => if evenly (p :: q :: t) then .ok (p, q - p) else .error .pols

/-- Lines 672–704: the main array. Real and imaginary parts become the first axis, and the axis of windows is put in as the third one. -/
def arrayOf (b : Beam K) : List Nat × (List Nat → K) :=
  if b.efield || b.cplx then
    ([2, b.nvec, 1, b.np, b.freqs.length] ++ b.space,
      fun i => match i with
        | c :: v :: _ :: p :: f :: s => if c = 0 then (b.data v p f s).1 else (b.data v p f s).2
        | _ => 0)
  else
    ([b.nvec, b.np, 1, b.freqs.length] ++ b.space,
      fun i => match i with
        | v :: p :: _ :: f :: s => (b.data v p f s).1
        | _ => 0)

/-- `write_beamfits`. -/
def write (T : BTol K) (b : Beam K) : Except BErr (BFile K) :=
  match freqOf T b.freqs with
  | .error e => .error e
  | .ok fr => match (if b.healpix then .ok (0, 0) else axisOf T .axis1 b.axis1) with
    | .error e => .error e
    | .ok a1 => match (if b.healpix then .ok (0, 0) else axisOf T .axis2 b.axis2) with
      | .error e => .error e
      | .ok a2 => match polOf b with
        | .error e => .error e
        | .ok po => .ok {
            healpix := b.healpix, efield := b.efield, ax1 := a1, ax2 := a2, pixels := if b.healpix then b.pixels else []
            freq := fr, pol := po, feeds := if b.efield then b.feeds else [], cols := b.cols
            shape := (arrayOf b).1, val := (arrayOf b).2 }

/-- `_gethduaxis`. -/
def line (n : Nat) (a : K × K) : List K := (List.range n).map fun (i : Nat) => a.2 * i + a.1

/-- A range `[lo, hi]` on an axis as the positions from the first value not below `lo` to the last value not above `hi`; lines 180–187, 199–206 and
258–263. -/
def rangeOf (l : List K) (r : Option (K × K)) : Except BErr (Option (Nat × Nat)) :=
  match r with
  | none => .ok none
  | some (lo, hi) =>
    match (List.range l.length).find? (fun i => (l[i]?.map fun x => decide (lo ≤ x)).getD false),
      (List.range l.length).reverse.find? (fun i => (l[i]?.map fun x => decide (x ≤ hi)).getD false) with
    | some a, some b => .ok (some (a, b + 1))
    | _, _ => .error .range

/-- `array[a:b]`. -/
def sliceL {α : Type} (s : Option (Nat × Nat)) (l : List α) : List α :=
  match s with
  | none => l
  | some (a, b) => (l.take b).drop a

/-- Where the first element of a slice was. -/
def start (s : Option (Nat × Nat)) : Nat := match s with
  | none => 0
  | some (a, _) => a

/-- `read_beamfits`, with ranges of azimuths, zenith angles and frequencies; those of angles are in degrees. -/
def read (T : BTol K) (azr zar fr : Option (K × K)) (f : BFile K) : Except BErr (Beam K) :=
  let d := axFreq f.healpix
  let ndim := f.shape.length
  let n1 := naxis f.shape 1
  let n2 := if f.healpix then 0 else naxis f.shape 2
  if f.healpix = true ∧ (azr.isSome ∨ zar.isSome) then .error .range
  else if f.healpix = true ∧ f.pixels.length ≠ n1 then .error .npix
  else
    let a1 := if f.healpix then [] else (line n1 f.ax1).map (· / T.deg)
    let a2 := if f.healpix then [] else (line n2 f.ax2).map (· / T.deg)
    match rangeOf a1 (azr.map fun r => (r.1 / T.deg, r.2 / T.deg)), rangeOf a2 (zar.map fun r => (r.1 / T.deg, r.2 / T.deg)) with
    | .error e, _ => .error e
    | _, .error e => .error e
    | .ok s1, .ok s2 =>
      if 1 < naxis f.shape (d + 2) then .error .windows
      else
        let fs := line (naxis f.shape d) f.freq
        match rangeOf fs fr with
        | .error e => .error e
        | .ok s3 =>
          if f.efield = true ∧ ndim < d + 4 then .error .dims
          else
            let cplx := f.efield || decide (d + 3 < ndim)
            let shape := if cplx then f.shape.tail else f.shape
            if shape.getD 1 0 ≠ 1 then .error .squeeze
            else
              let place : List Nat → List Nat := fun s => if f.healpix then s else match s with
                | [y, x] => [y + start s2, x + start s1]
                | s => s
              .ok {
                healpix := f.healpix, efield := f.efield, cplx := cplx
                axis1 := sliceL s1 a1, axis2 := sliceL s2 a2
                pixels := f.pixels
                freqs := sliceL s3 fs
                nvec := naxis f.shape (d + 3)
                pols := if f.efield then [] else (List.range (naxis f.shape (d + 1))).map fun (i : Nat) => f.pol.2 * i + f.pol.1
                feeds := if f.efield then f.feeds else []
                cols := f.cols.map fun c => (c.1, sliceL s3 c.2)
                data := fun v p k s =>
                  let i := v :: 0 :: p :: (k + start s3) :: place s
                  if cplx then (f.val (0 :: i), f.val (1 :: i)) else (f.val i, 0) }

end Verif.BeamFits
