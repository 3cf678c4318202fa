import Verif.Fits.Model

/-!
Model of calfits files, `src/pyuvdata/uvcal/calfits.py`: of `write_calfits` lines 66–170, 212–231, 244–294 and 322–476 with `_check_freq_spacing`,
`src/pyuvdata/uvcal/uvcal.py` lines 1209–1219 and `src/pyuvdata/utils/frequency.py` lines 89–125, and `_test_array_constant_spacing`,
`src/pyuvdata/utils/tools.py` lines 252–268; of `read_calfits` lines 519–531, 605–613, 637–681 and 718–793, with `_gethduaxis`,
`src/pyuvdata/utils/io/fits.py` lines 26–32.

The file is what is kept in it: the numbers of the axes, the table of antennas and the values of the images as functions of positions. Numbers are in
an ordered field; the two roundings to a number of decimal digits, of the step of frequencies and of the step of times, are functions. Left out: the
other checks of `check`, the header, lsts, positions and diameters of antennas, the precision of the images, and the comparison of axes of the images
with each other, which the writer makes equal. Lists that `check` requires and that are not there give the error `attr`.
-/
namespace Verif.CalFits

open Verif.Fits

/-- What is written, with antenna, channel, time and Jones component as positions; a gain is its real and imaginary part. -/
structure Cal (K : Type) where
  delay : Bool
  nspws : Nat
  spw : Int
  freqs : Option (List K)
  widths : Option (List K)
  fRange : Option (K × K)
  times : Option (List K)
  tRanges : Option (List (K × K))
  intTimes : List K
  jones : List Int
  flexJones : Option (List Int)
  antData : List Int
  antNums : List Int
  antNames : List (List Char)
  gain : Nat → Nat → Nat → Nat → K × K
  delays : Nat → Nat → Nat → Nat → K
  flags : Nat → Nat → Nat → Nat → Bool
  quality : Option (Nat → Nat → Nat → Nat → K)
  total : Option (Nat → Nat → Nat → K)

/-- What is in the file; the last position of `images` is the number of the image. -/
structure CFile (K : Type) where
  delay : Bool
  nimages : Nat
  njones : Nat
  ntimes : Nat
  nfreqs : Nat
  jones0 : Int
  jonesStep : Int
  time0 : K
  timeStep : K
  freq0 : K
  freqStep : K
  intTime : K
  chWidth : K
  fRange : Option (K × K)
  tRange : Option (K × K)
  hasQuality : Bool
  antNames : List (List Char)
  antNums : List Int
  antArr : List Int
  images : Nat → Nat → Nat → Nat → Nat → K
  flagImage : Nat → Nat → Nat → Nat → K
  total : Option (Nat → Nat → Nat → K)

inductive CErr where
  | windows | spacing | timeRange | times | intTimes | jones | attr
deriving DecidableEq

/-- Tolerances and roundings. The first three are those of frequencies, widths and times; `itol` is that of integration times; `rtol` and `atol` are
those of `np.isclose`. -/
structure Tol (K : Type) where
  ftol : K
  wtol : K
  ttol : K
  itol : K
  rtol : K
  atol : K
  rdF : K → K
  rdT : K → K

variable {K : Type}

/-- `Nfreqs`; it is one for delays and wide-band gains. -/
def Cal.nfreqs (o : Cal K) : Nat := if o.delay then 1 else (o.freqs.map List.length).getD 1

/-- `Ntimes`. -/
def Cal.ntimes (o : Cal K) : Nat := match o.times with
  | some t => t.length
  | none => (o.tRanges.map List.length).getD 0

section
variable [Field K] [LinearOrder K]

/-- Lines 90–102: the first frequency, and whether the channels are not apart by their width. -/
def refFreq (T : Tol K) (o : Cal K) : Except CErr (K × Bool) :=
  match o.freqs with
  | none => match o.fRange with
    | none => .error .attr
    | some r => .ok (r.1, false)
  | some f =>
    match f.head?, o.widths with
    | some f0, some w =>
      let e := if f.length = 1 then (false, false) else winErr T.ftol T.wtol f w
      if e.1 then .error .spacing else .ok (f0, e.2)
    | _, _ => .error .attr

/-- Lines 104–122: the step of frequencies. -/
def freqStep (T : Tol K) (o : Cal K) (apart : Bool) : Except CErr K :=
  if o.delay = false ∧ 1 < o.nfreqs then
    if apart then .ok (T.rdF ((diffs (o.freqs.getD [])).headD 0)) else .ok (median (o.widths.getD []))
  else match o.widths with
    | none => .ok 1
    | some w => match w.head? with
      | none => .error .attr
      | some x => .ok x

/-- `_test_array_constant_spacing`. -/
def evenSpaced (tol : K) (l : List K) : Bool := decide (l.length ≤ 2) || isConst tol (diffs l)

/-- Seconds of a day. -/
def day : K := 24 * 60 ^ 2

/-- `np.isclose`. -/
def isClose (rtol atol a b : K) : Bool := decide (|a - b| ≤ atol + rtol * |b|)

/-- Lines 124–155: the step of times and the integration time, lines 212–215. -/
def timeStep (T : Tol K) (o : Cal K) : Except CErr (K × K) :=
  if 1 < o.ntimes then
    if o.tRanges.isSome then .error .timeRange
    else if !evenSpaced T.ttol (o.times.getD []) then .error .times
    else if !isConst T.itol o.intTimes then .error .intTimes
    else
      let d := (diffs (o.times.getD [])).headD 0
      let m := median o.intTimes
      .ok (if isClose T.rtol T.atol d (m / day) then m / day else T.rdT d, m)
  else match o.intTimes.head? with
    | none => .error .attr
    | some x => .ok (x / day, x)

/-- Lines 156–159; a range of times is written by its mean. -/
def timeZero (o : Cal K) : Except CErr K :=
  match o.times with
  | some t => match t.head? with
    | some x => .ok x
    | none => .error .attr
  | none => match o.tRanges with
    | some [r] => .ok ((r.1 + r.2) / 2)
    | _ => .error .attr

/-- Lines 161–170. -/
def jonesStep (o : Cal K) : Except CErr Int :=
  if 1 < o.jones.length then
    if evenly o.jones then .ok (o.jones.getD 1 0 - o.jones.getD 0 0) else .error .jones
  else .ok (-1)

/-- Lines 322–354: real and imaginary part and flags of gains, or delays, and quality as the last image. -/
def imagesOf (o : Cal K) (a c t j i : Nat) : K :=
  if o.delay then
    if i = 0 then o.delays a c t j else (o.quality.getD fun _ _ _ _ => 0) a c t j
  else if i = 0 then (o.gain a c t j).1
  else if i = 1 then (o.gain a c t j).2
  else if i = 2 then if o.flags a c t j then 1 else 0
  else (o.quality.getD fun _ _ _ _ => 0) a c t j

/-- `write_calfits`. -/
def write (T : Tol K) (o : Cal K) : Except CErr (CFile K) :=
  if 1 < o.nspws then .error .windows
  else match refFreq T o with
  | .error e => .error e
  | .ok (f0, apart) => match freqStep T o apart with
    | .error e => .error e
    | .ok df => match timeStep T o with
      | .error e => .error e
      | .ok (dt, it) => match timeZero o with
        | .error e => .error e
        | .ok t0 => match jonesStep o with
          | .error e => .error e
          | .ok dj => match o.jones.head? with
            | none => .error .attr
            | some j0 =>
              if o.delay = true ∧ o.fRange = none then .error .attr
              else .ok {
                delay := o.delay
                nimages := (if o.delay then 1 else 3) + (if o.quality.isSome then 1 else 0)
                njones := o.jones.length, ntimes := o.ntimes, nfreqs := o.nfreqs
                jones0 := j0, jonesStep := dj, time0 := t0, timeStep := dt, freq0 := f0, freqStep := df
                intTime := it
                chWidth := if o.delay = false ∧ 1 < o.nfreqs then median (o.widths.getD []) else df
                fRange := if o.delay then o.fRange else none
                tRange := (o.tRanges.getD []).head?
                hasQuality := o.quality.isSome
                antNames := o.antNames.map fun n => n.take 8
                antNums := o.antNums
                antArr := o.antData ++ List.replicate (o.antNums.length - o.antData.length) (-1)
                images := imagesOf o
                flagImage := fun a c t j => if o.flags a c t j then 1 else 0
                total := o.total }

/-- Lines 526–531. -/
def readAnts (l : List Int) : List Int := if l.any (fun a => decide (a < 0)) then l.filter (fun a => decide (0 ≤ a)) else l

/-- `read_calfits`. -/
def read (f : CFile K) : Cal K where
  delay := f.delay
  nspws := 1
  spw := 0
  freqs := if f.delay then none else some ((List.range f.nfreqs).map fun (c : Nat) => f.freqStep * c + f.freq0)
  widths := if f.delay then none else some (List.replicate f.nfreqs f.chWidth)
  fRange := if f.delay then f.fRange else none
  times := if f.tRange.isSome ∧ f.ntimes = 1 then none else some ((List.range f.ntimes).map fun (i : Nat) => f.timeStep * i + f.time0)
  tRanges := if f.tRange.isSome ∧ f.ntimes = 1 then f.tRange.map fun r => [r] else none
  intTimes := List.replicate f.ntimes f.intTime
  jones := (List.range f.njones).map fun (i : Nat) => f.jonesStep * i + f.jones0
  flexJones := none
  antData := readAnts f.antArr
  antNums := f.antNums
  antNames := f.antNames
  gain := fun a c t j => if f.delay then (0, 0) else (f.images a c t j 0, f.images a c t j 1)
  delays := fun a c t j => if f.delay then f.images a c t j 0 else 0
  flags := fun a c t j => if f.delay then decide (f.flagImage a c t j ≠ 0) else decide (f.images a c t j 2 ≠ 0)
  quality := if f.hasQuality then some fun a c t j => if f.delay then f.images a c t j 1 else f.images a c t j (f.nimages - 1) else none
  total := f.total

end

end Verif.CalFits
