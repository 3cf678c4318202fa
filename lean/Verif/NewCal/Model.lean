import Verif.NewData.Model

/-!
# New calibration objects

Model of `new_uvcal` (`src/pyuvdata/uvcal/initializers.py` 171-397) with the parts of `UVCal.check` (`src/pyuvdata/uvcal/uvcal.py` 1636-1744 and
the shapes that `UVBase.check` looks at) that decide whether an object is made, and of `new_uvcal_from_uvdata`
(`initializers.py` 445-658). `get_time_params` for times, `get_freq_params` and `get_spw_params` are those of `Verif.NewData`.

* Numbers are elements of an ordered field. The sidereal time is a function of the time (`lst`), the test for overlapping ranges is a
  parameter (`overlap`, see C93).
* The telescope is given as an object; the deprecated arguments that make one are left out. Of other keyword arguments only `spw_array` is
  modelled (which `new_uvcal_from_uvdata` passes on). The conventions, catalogs, history and the text of names other than "linear" and
  "circular" for Jones terms are left out.
* Arrays of solutions have a shape and values at positions.
* Not modelled of the checks: types, sidereal times and antenna positions.
-/

namespace Verif.NewCal
open Verif.Np
open Verif.NewData (Num timeParams freqParams spwParams)
open Verif.Pol (Str)

variable {K P D V : Type}

/-- The telescope: one entry for each antenna. -/
structure Tel (P D : Type) where
  numbers : List Int
  names : List Str
  pos : List P
  diam : Option (List D)
  orient : Option Str

inductive CalType
  | gain | delay
  deriving DecidableEq

inductive Style
  | sky | redundant
  deriving DecidableEq

inductive Jones
  | linear | circular
  | nums (l : List Int)
  | names (l : List Str)

/-- An array of numpy. -/
structure Arr (V : Type) where
  shape : List Nat
  val : List Nat → V

/-- The dictionary `data`. -/
structure Data (V : Type) where
  flag : Option (Arr Bool) := none
  gain : Option (Arr V) := none
  delay : Option (Arr V) := none
  quality : Option (Arr V) := none
  total : Option (Arr V) := none

structure Args (K P D V : Type) where
  tel : Tel P D
  style : Style
  jones : Jones
  times : Option (List K) := none
  ranges : Option (List (K × K)) := none
  freqs : Option (List K) := none
  freqRange : Option (List (K × K)) := none
  calType : Option CalType := none
  intg : Num K := .none
  width : Num K := .none
  ants : Option (List Int) := none
  ids : Option (List Int) := none
  /-- the keyword argument `spw_array` -/
  spws : Option (List Int) := none
  refAnt : Option Str := none
  catalog : Option Str := none
  empty : Bool := false
  data : Data V := {}

/-- Integration times: `np.squeeze` may have made a number without an axis. -/
inductive Intg (K : Type)
  | number (x : K)
  | list (l : List K)

def Intg.size : Intg K → Nat
  | .number _ => 1
  | .list l => l.length

def Intg.num : Intg K → Num K
  | .number x => .all [x]
  | .list l => .all l

structure Cal (K P D V : Type) where
  tel : Tel P D
  style : Style
  calType : CalType
  wide : Bool
  times : Option (List K)
  lst : Option (List K)
  ranges : Option (List (K × K))
  lstRange : Option (List (K × K))
  intg : Option (Intg K)
  freqs : Option (List K)
  width : Option (List K)
  freqRange : Option (List (K × K))
  ids : Option (List Int)
  spws : List Int
  ants : List Int
  jones : List Int
  nants : Nat
  nfreqs : Nat
  nspws : Nat
  ntimes : Option Nat
  njones : Nat
  refAnt : Option Str
  catalog : Option Str
  flag : Option (Arr Bool) := none
  gain : Option (Arr V) := none
  delay : Option (Arr V) := none
  quality : Option (Arr V) := none
  total : Option (Arr V) := none

inductive Err
  | orient | ants | intg | width | bothFreqs | noFreqs | jones | sky | check | needOrient | spws | window | stokes | bothAnts
  deriving DecidableEq

section
variable [Field K] [LinearOrder K]

/-- `get_time_params` for ranges, uvdata/initializers.py 45-81: the difference is squeezed, so that one range gives a number. -/
def rangeIntg (ranges : List (K × K)) : Num K → Intg K
  | .none =>
    match ranges.map (fun r => (r.2 - r.1) * 86400) with
    | [x] => .number x
    | l => .list l
  | .one x => .list (ranges.map (fun _ => x))
  | .all l => .list l

/-- Lines 245-258. The integration times that the times have are handed on to the ranges. -/
def timeArgs (lst : K → K) (a : Args K P D V) : Except Err (Option (Intg K)) :=
  let first : Except Err (Option (Intg K)) := match a.times with
    | none => .ok none
    | some t => match timeParams lst t a.intg with
      | .error _ => .error .intg
      | .ok r => .ok (some (.list r.2))
  match first, a.ranges with
  | .error e, _ => .error e
  | .ok i, none => .ok i
  | .ok i, some r =>
    let j := rangeIntg r ((i.map Intg.num).getD a.intg)
    if j.size ≠ r.length then .error .intg else .ok (some j)

/-- What lines 260-291 make of frequencies: widths, windows of the channels, windows, wide-band, and the type. -/
structure Freqs (K : Type) where
  width : Option (List K)
  ids : Option (List Int)
  spws : List Int
  wide : Bool
  calType : CalType

def _root_.Verif.NewData.Num.isNone : Num K → Bool
  | .none => true
  | _ => false

/-- Lines 260-291. -/
def freqArgs (a : Args K P D V) : Except Err (Freqs K) :=
  if a.freqRange.isSome ∧ (a.freqs.isSome ∨ a.width.isNone = false ∨ a.ids.isSome) then .error .bothFreqs
  else match a.freqs, a.freqRange with
  | some f, _ => match freqParams f a.width with
    | .error _ => .error .width
    | .ok w => .ok ⟨some w, some (spwParams f.length a.ids).1, (spwParams f.length a.ids).2, false, .gain⟩
  | none, some r => .ok ⟨none, none, (List.range r.length).map Int.ofNat, true, a.calType.getD .delay⟩
  | none, none => .error .noFreqs

/-- Lines 296-306. -/
def jonesArgs (xo : Option Str) : Jones → Except Err (List Int)
  | .linear => .ok [-5, -6, -7, -8]
  | .circular => .ok [-1, -2, -3, -4]
  | .nums l => .ok l
  | .names l => match l.mapM (Pol.jstr2num xo) with
    | none => .error .jones
    | some l => .ok l

/-- Lines 235-243. -/
def antArgs (a : Args K P D V) : Except Err (List Int) :=
  match a.ants with
  | none => .ok a.tel.numbers
  | some l => if l.all (fun n => decide (n ∈ a.tel.numbers)) then .ok l else .error .ants

/-- Lines 321-374: the labels. `spw_array` may be replaced at the end, when the number of windows is set already. -/
def labels (lst : K → K) (a : Args K P D V) (ants : List Int) (intg : Option (Intg K)) (f : Freqs K) (jones : List Int) : Cal K P D V :=
  { tel := a.tel, style := a.style, calType := f.calType, wide := f.wide
    times := a.times, lst := a.times.map (·.map lst)
    ranges := a.ranges, lstRange := a.ranges.map (·.map (fun r => (lst r.1, lst r.2)))
    intg := intg
    freqs := a.freqs, width := f.width, freqRange := a.freqRange
    ids := f.ids
    spws := a.spws.getD f.spws
    ants := ants, jones := jones
    nants := ants.length
    nfreqs := (a.freqs.map List.length).getD 1
    nspws := f.spws.length
    ntimes := match a.ranges with
      | some r => some r.length
      | none => a.times.map List.length
    njones := jones.length
    refAnt := a.refAnt, catalog := a.catalog }

/-- A dictionary that is not empty. -/
def Data.given (d : Data V) : Bool :=
  d.flag.isSome || d.gain.isSome || d.delay.isSome || d.quality.isSome || d.total.isSome

/-- The shape of solutions, lines 378-383. -/
def Cal.shape (c : Cal K P D V) : List Nat :=
  [c.nants, if c.wide then c.nspws else c.nfreqs, c.ntimes.getD 0, c.njones]

/-- Lines 376-394. -/
def fill [Zero V] [One V] (empty : Bool) (d : Data V) (c : Cal K P D V) : Cal K P D V :=
  if empty || d.given then
    { c with
      flag := some (d.flag.getD ⟨c.shape, fun _ => false⟩)
      gain := if c.calType = .delay then none else some (d.gain.getD ⟨c.shape, fun _ => 1⟩)
      delay := if c.calType = .delay then some (d.delay.getD ⟨c.shape, fun _ => 0⟩) else none
      quality := d.quality
      total := d.total }
  else c

/-! ### The check -/

def lenIs {α : Type} (n : Nat) : Option (List α) → Bool
  | none => true
  | some l => decide (l.length = n)

def shapeIs {α : Type} (s : List Nat) : Option (Arr α) → Bool
  | none => true
  | some a => decide (a.shape = s)

/-- The telescope: one entry for each antenna. -/
def telOk (t : Tel P D) : Bool :=
  decide (t.names.length = t.numbers.length) && decide (t.pos.length = t.numbers.length) && lenIs t.numbers.length t.diam

/-- Shapes of times and integration times. -/
def timesOk (c : Cal K P D V) : Bool :=
  match c.ntimes with
    | none => false
    | some n =>
      decide (n ≠ 0) && lenIs n c.times && lenIs n c.lst && lenIs n c.ranges && lenIs n c.lstRange &&
      (match c.intg with
        | some (.list l) => decide (l.length = n)
        | _ => false)

def overlapOk (overlap : List (K × K) → Bool) (c : Cal K P D V) : Bool :=
  match c.ranges with
    | none => true
    | some r => !overlap r

/-- Uvcal.py 1721-1744. -/
def kindOk (c : Cal K P D V) : Bool :=
  if c.wide then c.freqRange.isSome && c.freqs.isNone && c.width.isNone && c.ids.isNone
    else c.freqs.isSome && c.width.isSome && c.freqRange.isNone &&
      (match c.ids with
        | none => false
        | some l => l.all (fun w => decide (w ∈ c.spws)))

/-- Shapes, acceptable values and uvcal.py 1644-1744. An axis without entries cannot be checked (uvbase.py 814). -/
def checkLabels (overlap : List (K × K) → Bool) (c : Cal K P D V) : Bool :=
  telOk c.tel && c.tel.orient.isSome &&
  decide (c.wide = true → c.nfreqs = 1) &&
  timesOk c &&
  decide (c.nants ≠ 0) && decide (c.ants.length = c.nants) &&
  decide (c.njones ≠ 0) && decide (c.jones.length = c.njones) && c.jones.all (fun j => decide (-8 ≤ j ∧ j ≤ 0)) &&
  decide (c.nspws ≠ 0) && decide (c.spws.length = c.nspws) &&
  decide (c.nfreqs ≠ 0) && lenIs c.nfreqs c.freqs && lenIs c.nfreqs c.width && lenIs c.nfreqs c.ids && lenIs c.nspws c.freqRange &&
  decide (c.style = .sky → c.refAnt.isSome ∧ c.catalog.isSome) &&
  (c.times.isSome != c.ranges.isSome) && (c.lst.isSome != c.lstRange.isSome) &&
  overlapOk overlap c &&
  c.ants.all (fun n => decide (n ∈ c.tel.numbers)) &&
  kindOk c

/-- The same for arrays. -/
def check (overlap : List (K × K) → Bool) (c : Cal K P D V) : Bool :=
  checkLabels overlap c &&
  shapeIs c.shape c.flag && shapeIs c.shape c.gain && shapeIs c.shape c.delay && shapeIs c.shape c.quality &&
  shapeIs c.shape.tail c.total

/-- `new_uvcal`. -/
def new [Zero V] [One V] (lst : K → K) (overlap : List (K × K) → Bool) (a : Args K P D V) : Except Err (Cal K P D V) :=
  if a.tel.orient.isNone then .error .orient                                                 -- 209-220
  else match antArgs a with
  | .error e => .error e
  | .ok ants => match timeArgs lst a with
    | .error e => .error e
    | .ok intg => match freqArgs a with
      | .error e => .error e
      | .ok f => match jonesArgs a.tel.orient a.jones with
        | .error e => .error e
        | .ok jones =>
          if a.style = .sky ∧ (a.refAnt.isNone ∨ a.catalog.isNone) then .error .sky          -- 316-319
          else
            let c := fill a.empty a.data (labels lst a ants intg f jones)
            if check overlap c then .ok c else .error .check                                 -- 396

/-! ## From visibilities -/

/-- What is used of a UVData object. -/
structure Vis (K P D : Type) where
  tel : Tel P D
  /-- times, integration times and antennas of the rows -/
  rows : List (K × K × Int × Int)
  freqs : List K
  width : List K
  ids : List Int
  pols : List Int

/-- Keyword arguments of `new_uvcal_from_uvdata`. `times`, `ranges` and `intg` are used together. -/
structure Opts (K P D V : Type) where
  style : Style
  calType : CalType := .gain
  wide : Bool := false
  jones : Option Jones := none
  spws : Option (List Int) := none
  times : Option (List K) := none
  ranges : Option (List (K × K)) := none
  intg : Num K := .none
  freqRange : Option (List (K × K)) := none
  /-- a part of the antennas, by number or by name -/
  antNumbers : Option (List Int) := none
  antNames : Option (List Str) := none
  ants : Option (List Int) := none
  orient : Option Str := none
  refAnt : Option Str := none
  catalog : Option Str := none
  empty : Bool := false
  data : Data V := {}

/-- Lines 459-461: the different times, and the integration time of the first row of each. -/
def visTimes (v : Vis K P D) : List (K × K) :=
  (unique (v.rows.map (·.1))).map (fun t => (t, ((v.rows.find? (fun r => decide (r.1 = t))).map (·.2.1)).getD 0))

/-- The smallest and largest frequency of a window, lines 501-506. -/
def windowRange (v : Vis K P D) (w : Int) : Option (K × K) :=
  match ((v.freqs.zip v.ids).filter (fun p => decide (p.2 = w))).map (·.1) with
  | [] => none
  | f :: fs => some (fs.foldl min f, fs.foldl max f)

end

/-- `np.argsort`, of different numbers. -/
def sortIdx (l : List Int) : List Nat := (List.range l.length).insertionSort (fun i j => l.getD i 0 ≤ l.getD j 0)

/-- Positions of an array. -/
def take {α : Type} (l : List α) (idx : List Nat) : List α := idx.filterMap (fun i => l[i]?)

/-- Lines 528-539: positions whose number, or whose name, is in the list. -/
def among {α : Type} [DecidableEq α] (l part : List α) : List Nat := whereIdx (fun x => decide (x ∈ part)) l

/-- Lines 541-561: the antennas at these positions, sorted by number. The diameters are not sorted. -/
def restrict (t : Tel P D) (idx : List Nat) : Tel P D :=
  let nums := take t.numbers idx
  let s := sortIdx nums
  { t with
    numbers := take nums s
    names := take (take t.names idx) s
    pos := take (take t.pos idx) s
    diam := t.diam.map (fun d => take d idx) }

/-- Lines 515-561. -/
def antennas (t : Tel P D) (numbers : Option (List Int)) (names : Option (List Str)) : Except Err (Tel P D) :=
  match numbers, names with
  | none, none => .ok t
  | some _, some _ => .error .bothAnts
  | some l, none => .ok (restrict t (among t.numbers l))
  | none, some l => .ok (restrict t (among t.names l))

/-- Lines 614-631. -/
def visJones (pols : List Int) : Except Err (List Int) :=
  if pols.all (fun p => decide (p < -4)) then
    if pols.length = 1 ∧ (pols.headD 0) > -7 then .ok pols else .ok [-5, -6]
  else if pols.all (fun p => decide (p < 0)) then
    if pols.length = 1 ∧ (pols.headD 0) > -3 then .ok pols else .ok [-1, -2]
  else .error .stokes

section
variable [Field K] [LinearOrder K]

/-- Lines 601-612. -/
def visAnts (v : Vis K P D) (t : Tel P D) (given : Option (List Int)) : List Int :=
  let l := given.getD (v.rows.flatMap (fun r => [r.2.2.1, r.2.2.2]))
  (unique l).filter (fun n => decide (n ∈ t.numbers))

/-- The part of the arguments that is about frequencies, lines 450-511. -/
structure FreqPart (K : Type) where
  freqs : Option (List K)
  width : Num K
  ids : Option (List Int)
  freqRange : Option (List (K × K))
  spws : Option (List Int)

def visFreqs (v : Vis K P D) (o : Opts K P D V) : Except Err (FreqPart K) :=
  if o.calType = .gain ∧ o.wide = false then
    match o.spws with
    | some s => if s.length ≠ (unique v.ids).length then .error .spws else .ok ⟨some v.freqs, .all v.width, some v.ids, none, none⟩
    | none => .ok ⟨some v.freqs, .all v.width, some v.ids, none, none⟩
  else
    let s := o.spws.getD (unique v.ids)
    match o.freqRange with
    | some r => .ok ⟨none, .none, none, some r, some s⟩
    | none => match s.mapM (windowRange v) with
      | none => .error .window
      | some r => .ok ⟨none, .none, none, some r, some s⟩

/-- The part that is about times, lines 453-462. -/
def visTimeArgs (v : Vis K P D) (o : Opts K P D V) : Option (List K) × Option (List (K × K)) × Num K :=
  if o.intg.isNone = false ∨ o.times.isSome ∨ o.ranges.isSome then (o.times, o.ranges, o.intg)
  else (some ((visTimes v).map (·.1)), none, .all ((visTimes v).map (·.2)))

/-- Line 614. -/
def pickJones (v : Vis K P D) (o : Opts K P D V) : Except Err Jones :=
  match o.jones with
  | some j => .ok j
  | none => match visJones v.pols with
    | .ok l => .ok (.nums l)
    | .error e => .error e

/-- `new_uvcal_from_uvdata`. -/
def fromVis [Zero V] [One V] (lst : K → K) (overlap : List (K × K) → Bool) (v : Vis K P D) (o : Opts K P D V) : Except Err (Cal K P D V) :=
  match visFreqs v o with
  | .error e => .error e
  | .ok f => match antennas v.tel o.antNumbers o.antNames with
    | .error e => .error e
    | .ok t =>
      let t := { t with orient := o.orient.or t.orient }                                      -- 592-595
      if t.orient.isNone then .error .needOrient                                              -- 596-599
      else
        match pickJones v o with
        | .error e => .error e
        | .ok j =>
          new lst overlap
            { tel := t, style := o.style, jones := j
              times := (visTimeArgs v o).1, ranges := (visTimeArgs v o).2.1, intg := (visTimeArgs v o).2.2
              freqs := f.freqs, freqRange := f.freqRange, calType := some o.calType, width := f.width
              ants := some (visAnts v t o.ants), ids := f.ids, spws := f.spws
              refAnt := o.refAnt, catalog := o.catalog, empty := o.empty, data := o.data }

end
end Verif.NewCal
