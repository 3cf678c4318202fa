import Mathlib.Algebra.Field.Basic
import Mathlib.Algebra.Order.Group.Abs
import Verif.Pol.Model

/-! # Calibration tables of CASA

`UVCal.write_ms_cal` and `UVCal.read_ms_cal` (src/pyuvdata/uvcal/ms_cal.py), with the columns of the main table and the tables `SPECTRAL_WINDOW`
(src/pyuvdata/utils/io/ms.py 1198-1333). Arrays are functions of positions. Antennas of the file (`tel`, `names` of the reader) come from the table
`ANTENNA`, which is modelled in MsAnt; phase centers and observers are not modelled here. Arithmetic is exact; `off` is the difference of Julian and
modified Julian dates in days and `tol` the tolerance of times in seconds (time scale UTC, so that times are converted by a shift). Antenna numbers,
spectral windows and Jones terms of an object are each given once. `_convert_to_slices` (540, 618) selects what its indices say (see Slices). -/

namespace Verif.MsCal

/-- Errors: a `ValueError` with a text of the writer or reader, an `IndexError`, arrays that do not fit. -/
inductive Err
  | value | index | shape
deriving DecidableEq, Repr

/-- `time_array` or `time_range`, in days. -/
inductive Times (K : Type)
  | point (t : Nat → K)
  | range (start stop : Nat → K)

/-- The part of a UVCal object that is written. Data have positions of antenna, channel (or spectral window, if wide), time and Jones term. -/
structure Cal (K α : Type) where
  tel : List Nat
  names : List String
  ants : List Nat
  spws : List Int
  /-- Spectral windows of channels (`flex_spw_id_array`); not used if `wide`. -/
  chanSpw : List Int
  wide : Bool
  delay : Bool
  jones : List Int
  nT : Nat
  times : Times K
  expo : Nat → K
  scan : Option (Nat → Int)
  refName : String
  refArr : Option (Nat → Int)
  freq : Nat → K
  width : Nat → K
  soln : Nat → Nat → Nat → Nat → α
  flag : Nat → Nat → Nat → Nat → Bool
  qual : Option (Nat → Nat → Nat → Nat → K)
  totalQual : Option (Nat → Nat → Nat → K)
  divide : Bool
  extra : List (String × String)

/-- A row of the main table. Cells of data have positions of channel and Jones term. -/
structure Row (K α : Type) where
  time : K
  spw : Nat
  ant : Nat
  ref : Int
  interval : K
  expo : K
  scan : Int
  nchan : Nat
  soln : Nat → Nat → α
  err : Nat → Nat → K
  flag : Nat → Nat → Bool

/-- A row of `SPECTRAL_WINDOW`: `ASSOC_SPW_ID` and, for each channel, frequency and width. -/
structure Spw (K : Type) where
  id : Int
  chans : List (K × K)

/-- A table; `njones` is the size of the last axis of cells. -/
structure File (K α : Type) where
  rows : List (Row K α)
  spw : List (Spw K)
  njones : Nat
  wide : Bool
  delay : Bool
  /-- Keyword `pyuvdata_jones`. -/
  jones : Option (List Int)
  /-- `CASA_Version` and `MSName`. -/
  casaKeys : List (String × String)
  /-- Keyword `pyuvdata_extra`. -/
  extra : List (String × String)

section write

variable {K α : Type} [Field K]

/-- `determine_pol_order` with "CASA" (utils/pol.py 520-525) for one or two terms; `none` is an `IndexError` for an unknown one. -/
def polOrder : List Int → Option (List Nat)
  | [a] => (Verif.Pol.casaOrder.idxOf? a).map fun _ => [0]
  | [a, b] => (Verif.Pol.casaOrder.idxOf? a).bind fun x => (Verif.Pol.casaOrder.idxOf? b).map fun y => if x ≤ y then [0, 1] else [1, 0]
  | _ => none

/-- `np.repeat` of an array. -/
def rep {β : Type} (n : Nat) (x : Nat → β) (r : Nat) : β := x (r / n)

/-- `np.tile` of an array of `len` entries. -/
def tile {β : Type} (len : Nat) (x : Nat → β) (r : Nat) : β := x (r % len)

/-- Channels of a spectral window (533-542). -/
def Cal.chans (c : Cal K α) (s : Int) : List Nat := (List.range (if c.wide then c.spws else c.chanSpw).length).filter fun i =>
  decide ((if c.wide then c.spws else c.chanSpw)[i]? = some s)

/-- `Nants_casa` (522); `none` is the error of `np.max` without antennas. -/
def Cal.nA (c : Cal K α) : Option Nat := c.tel.max?.map (· + 1)

/-- Times and intervals in seconds (509-516). -/
def Cal.mid (c : Cal K α) (off : K) (t : Nat) : K :=
  match c.times with
  | .point x => (x t - off) * 86400
  | .range a b => ((a t + b t) / 2 - off) * 86400

def Cal.interval (c : Cal K α) (t : Nat) : K :=
  match c.times with
  | .point _ => 0
  | .range a b => (b t - a t) * 86400

/-- Number of the reference antenna (549-567). -/
def Cal.ref (c : Cal K α) (t : Nat) : Int :=
  match c.refArr with
  | some x => x t
  | none => match (c.names.idxOf? c.refName).bind fun i => c.tel[i]? with
    | some n => (n : Int)
    | none => -1

/-- `qual_arr` (628-632). -/
def Cal.quality (c : Cal K α) (a ch t j : Nat) : K :=
  match c.qual with
  | some q => q a ch t j
  | none => 1

/-- One array of a spectral window (648-676): antennas at their numbers, others with the default `d`, Jones terms in the order `ord`, and if there is
only one a second one with `pad`. Positions: antenna number, channel of the window, time, Jones term. -/
def Cal.place {β : Type} (c : Cal K α) (ord : List Nat) (chs : List Nat) (d pad : β) (x : Nat → Nat → Nat → Nat → β) (n t ch j : Nat) : β :=
  if c.jones.length = 1 ∧ j = 1 then pad
  else match c.ants.idxOf? n, chs[ch]?, ord[j]? with
    | some a, some i, some k => x a i t k
    | _, _, _ => d

/-- Row `r` of the main table (548-613, 624-685). The first row of the `count`-th spectral window is `count * (nA * nT)`. -/
def Cal.row [Mul α] [Zero α] [NatCast α] (c : Cal K α) (off : K) (nA : Nat) (ord : List Nat) (r : Nat) : Row K α :=
  let count := r / (nA * c.nT)
  let q := r % (nA * c.nT)
  let t := q / nA
  let n := q % nA
  let chs := match c.spws[count]? with
    | some s => c.chans s
    | none => []
  { time := tile (c.nT * nA) (rep nA (c.mid off)) r
    spw := rep (nA * c.nT) id r
    ant := tile nA id r
    ref := tile (c.nT * nA) (rep nA c.ref) r
    interval := tile (c.nT * nA) (rep nA c.interval) r
    expo := tile (c.nT * nA) (rep nA c.expo) r
    scan := tile (c.nT * nA) (rep nA (c.scan.getD fun _ => 0)) r
    nchan := chs.length
    soln := fun ch j => c.place ord chs 0 0 (fun a i t k => if c.delay then c.soln a i t k * ((10 ^ 9 : Nat) : α) else c.soln a i t k) n t ch j
    err := fun ch j => c.place ord chs 0 0 c.quality n t ch j
    flag := fun ch j => c.place ord chs true true c.flag n t ch j }

/-- `write_ms_cal` (409-700). `total_quality_array[0][spw_sel, :, :]` has three indices for an array of two axes (634). -/
def write [Mul α] [Zero α] [NatCast α] (off : K) (c : Cal K α) : Except Err (File K α) :=
  if 2 < c.jones.length then .error .value
  else if c.divide = false then .error .value
  else match c.nA, polOrder c.jones with
    | none, _ => .error .value
    | _, none => .error .index
    | some nA, some ord =>
      if c.totalQual.isSome ∧ c.spws ≠ [] then .error .index
      else .ok
        { rows := (List.range (c.nT * c.spws.length * nA)).map (c.row off nA ord)
          spw := c.spws.map fun s => ⟨s, (c.chans s).map fun i => (c.freq i, c.width i)⟩
          njones := if c.jones.length = 1 then 2 else c.jones.length
          wide := c.wide
          delay := c.delay
          jones := some c.jones
          casaKeys := c.extra.filter fun k => decide (k.1 = "CASA_Version") || decide (k.1 = "MSName")
          extra := c.extra.filter fun k => !(decide (k.1 = "CASA_Version") || decide (k.1 = "MSName")) }

end write

section read

variable {K α : Type} [Field K] [LinearOrder K]

/-- One step of the loop over times (252-273). Entries of `time_dict` in the order of insertion, and the next free index. -/
def timeStep (tol : K) (st : List (K × Nat) × Nat) (t : K) : (List (K × Nat) × Nat) × Nat :=
  match st.1.find? fun e => decide (e.1 = t) with
  | some e => (st, e.2)
  | none => match st.1.findIdx? fun e => decide (|e.1 - t| ≤ tol) with
    | some p => ((st.1 ++ [(t, p)], st.2), p)
    | none => ((st.1 ++ [(t, st.2)], st.2 + 1), st.2)

/-- `row_timeidx_map` and the number of times. -/
def timeIdx (tol : K) : List (K × Nat) × Nat → List K → List Nat × Nat
  | st, [] => ([], st.2)
  | st, t :: ts => (((timeStep tol st t).2 :: (timeIdx tol (timeStep tol st t).1 ts).1), (timeIdx tol (timeStep tol st t).1 ts).2)

/-- Start and number of channels of a spectral window (182-195). -/
def slice (f : File K α) (s : Nat) : Option (Nat × Nat) :=
  (f.spw[s]?).map fun w => (((f.spw.take s).map fun x => x.chans.length).sum, w.chans.length)

/-- Values of rows put into an array, one after the other: `hit r x` is the value that row `r` puts at `x`. -/
def fill {R X V : Type} (hit : R → X → Option V) (init : X → V) (rows : List R) : X → V :=
  rows.foldl (fun f r x => (hit r x).getD (f x)) init

/-- Where the row of an antenna and spectral window is put (298, 312); `none` is the `KeyError` that skips the row. -/
def target (tel : List Nat) (f : File K α) (r : Row K α) : Option (Nat × Nat × Nat) :=
  (tel.idxOf? r.ant).bind fun a => (slice f r.spw).map fun s => (a, s)

/-- What a row and its time index put at antenna, channel, time and Jones term (319, 323, 324); a single channel is broadcast. -/
def cellHit {β : Type} (tel : List Nat) (f : File K α) (cell : Row K α → Nat → Nat → β) (r : Row K α × Nat) (x : Nat × Nat × Nat × Nat) : Option β :=
  match target tel f r.1 with
  | none => none
  | some (a, start, n) =>
    if x.1 = a ∧ start ≤ x.2.1 ∧ x.2.1 < start + n ∧ x.2.2.1 = r.2 ∧ x.2.2.2 < f.njones
    then some (cell r.1 (if r.1.nchan = 1 then 0 else x.2.1 - start) x.2.2.2) else none

/-- What a row puts at its time (320-327). -/
def timeHit {β : Type} (tel : List Nat) (f : File K α) (cell : Row K α → β) (r : Row K α × Nat) (x : Nat) : Option β :=
  if (target tel f r.1).isSome ∧ x = r.2 then some (cell r.1) else none

/-- Errors of assignments: a time index outside of the array, or cells of another number of channels. -/
def rowErr (tel : List Nat) (f : File K α) (nT : Nat) (r : Row K α × Nat) : Option Err :=
  match target tel f r.1 with
  | none => none
  | some (_, _, n) => if nT ≤ r.2 then some .index else if r.1.nchan ≠ 1 ∧ r.1.nchan ≠ n then some .shape else none

/-- What is read. -/
structure Out (K α : Type) where
  ants : List Nat
  spws : List Int
  chanSpw : List Int
  freqs : List (K × K)
  /-- `none` if unknown. -/
  jones : Option (List Int)
  njones : Nat
  nT : Nat
  times : Times K
  expo : Nat → K
  scan : Nat → Int
  refName : Option String
  refArr : Option (Nat → Int)
  soln : Nat × Nat × Nat × Nat → α
  flag : Nat × Nat × Nat × Nat → Bool
  qual : Nat × Nat × Nat × Nat → K
  extra : List (String × String)

/-- Name of the reference antenna and the array, if there are several (334-346); `sky` is the style of the calibration. -/
def refOf (tel : List Nat) (names : List String) (sky : Bool) (nT : Nat) (ref : Nat → Int) : Option String × Option (Nat → Int) :=
  if 1 < ((List.range nT).map ref).dedup.length then (some "various", some ref)
  else match (tel.findIdx? fun (n : Nat) => decide ((n : Int) = ref 0)).bind fun i => names[i]? with
    | some s => (some s, none)
    | none => (if sky then some "unknown reference antenna" else none, none)

/-- 348-361. -/
def timesOf (off : K) (nT : Nat) (mid interval : Nat → K) : Times K :=
  if (List.range nT).all fun t => decide (interval t = 0) then .point fun t => mid t / 86400 + off
  else .range (fun t => mid t / 86400 + off - interval t / (2 * 86400)) fun t => mid t / 86400 + off + interval t / (2 * 86400)

/-- Only one Jones term is kept if the other is a pad (391-399). -/
def dropPad (njones : Nat) (jones : Option (List Int)) (allFlag : Bool) : Nat :=
  if njones = 2 ∧ jones.map List.length = some 1 ∧ allFlag = true then 1 else njones

/-- `read_ms_cal` (60-399). `tel` and `names` are the antennas of the file. -/
def read [Mul α] [Zero α] [NatCast α] [Inv α] (tol off : K) (sky : Bool) (tel : List Nat) (names : List String) (f : File K α) : Except Err (Out K α) :=
  let ti := timeIdx tol ([], 0) (f.rows.map Row.time)
  let rows := f.rows.zip ti.1
  let nT := ti.2
  let nchan := (f.spw.map fun w => w.chans.length).sum
  if f.rows = [] then .error .index
  else match rows.findSome? (rowErr tel f nT) with
    | some e => .error e
    | none =>
      let flag := fill (cellHit tel f Row.flag) (fun _ => true) rows
      let ref := fill (timeHit tel f Row.ref) (fun _ => 0) rows
      let soln := fill (cellHit tel f Row.soln) (fun _ => 0) rows
      let allFlag := (List.range tel.length).all fun a => (List.range nchan).all fun ch => (List.range nT).all fun t => flag (a, ch, t, 1)
      .ok
        { ants := tel
          spws := f.spw.map Spw.id
          chanSpw := if f.wide then f.spw.map Spw.id else f.spw.flatMap fun w => w.chans.map fun _ => w.id
          freqs := f.spw.flatMap Spw.chans
          jones := f.jones
          njones := dropPad f.njones f.jones allFlag
          nT := nT
          times := timesOf off nT (fill (timeHit tel f Row.time) (fun _ => 0) rows) (fill (timeHit tel f Row.interval) (fun _ => 0) rows)
          expo := fill (timeHit tel f Row.expo) (fun _ => 0) rows
          scan := fill (timeHit tel f Row.scan) (fun _ => 0) rows
          refName := (refOf tel names sky nT ref).1
          refArr := (refOf tel names sky nT ref).2
          soln := fun x => if f.delay then soln x * ((10 ^ 9 : Nat) : α)⁻¹ else soln x
          flag := flag
          qual := fill (cellHit tel f Row.err) (fun _ => 0) rows
          extra := f.casaKeys }

end read

end Verif.MsCal
