import Mathlib.Algebra.Order.Field.Basic
import Verif.History.Model
import Verif.Np

/-!
# Making, writing and reading objects of flags

Model of `UVFlag.__init__` (507-589), `_set_mode_flag`, `_set_mode_metric` (643-664), `clear_unused_attributes` (843-872), `read`
(3001-3417), `write` (3419-3529), `from_uvdata` (3531-3684) and `from_uvcal` (3686-3836) in `src/pyuvdata/uvflag/uvflag.py`.

An array is its shape and its entries in order. A telescope has its name, location, antennas and everything else (`X`); that its
header survives a file is C150, so it is one entry of the file here. `known` is `set_telescope_params(run_check=False)`, `blNum` is
`antnums_to_baseline`, `text` is the decimal form of a number. Files are records with entries that may be missing; data are told
from headers of other shapes by the number of axes only. Keywords with a slash in their name, metafits files, warnings and the check at
the end are left out. `version` is the text about the version of pyuvdata.
-/

namespace Verif.FlagIo
open Verif.Pol (Str)
open Verif.History (hasVersion)

inductive FType
  | antenna | baseline | waterfall
deriving DecidableEq

inductive FMode
  | metric | flag
deriving DecidableEq

/-- An array. -/
structure Arr (D : Type) where
  shape : List Nat
  flat : List D
deriving DecidableEq

/-- `np.full(shape, x)`. -/
def full {D : Type} (shape : List Nat) (x : D) : Arr D := ⟨shape, List.replicate shape.prod x⟩

/-- Polarizations: numbers, or texts if they were collapsed. -/
inductive Pols
  | nums (l : List Int)
  | texts (l : List Str)
deriving DecidableEq

/-- `len(self.polarization_array)`. -/
def Pols.count : Pols → Nat
  | .nums l => l.length
  | .texts l => l.length

structure Tel (P X : Type) where
  name : Option Str
  loc : Option P
  nums : Option (List Nat)
  names : Option (List Str)
  pos : Option (List P)
  nants : Option Nat
  rest : X
deriving DecidableEq

/-- Rows of an object of type "baseline": baseline numbers, antennas. -/
structure Rows where
  bl : List Nat
  a1 : List Nat
  a2 : List Nat
  nbls : Nat
  nblts : Nat
deriving DecidableEq

/-- An object. -/
structure Flg (α P X V : Type) where
  type : FType
  mode : FMode
  history : Str
  label : Str
  ntimes : Nat
  times : List α
  lsts : List α
  nfreqs : Nat
  freqs : List α
  widths : List α
  nspws : Nat
  spws : List Int
  flex : List Int
  npols : Nat
  pols : Pols
  tel : Tel P X
  rows : Option Rows
  ant : Option (List Nat)
  nants : Option Nat
  metric : Option (Arr α)
  weights : Option (Arr α)
  wsq : Option (Arr α)
  flags : Option (Arr Bool)
  kws : List (Str × V)
  files : List Str
deriving DecidableEq

/-- The text about the version is added unless it is there. -/
def withVersion (version h : Str) : Str := if hasVersion h version then h else h ++ version

/-- A file. -/
structure Hdr (α P X V : Type) where
  type : Str
  mode : Str
  ntimes : Option Nat
  times : List α
  lsts : List α
  nfreqs : Option Nat
  freqs : List α
  widths : Option (α ⊕ List α)
  spws : Option (List Int)
  nspws : Option Nat
  flex : Option (List Int)
  npols : Option Nat
  pols : Pols
  tel : Tel P X
  history : Str
  label : Option Str
  kws : List (Str × V)
  a1 : Option (List Nat)
  a2 : Option (List Nat)
  nblts : Option Nat
  ant : Option (List Nat)
  nants : Option Nat
  metric : Option (Arr α)
  weights : Option (Arr α)
  wsq : Option (Arr α)
  flags : Option (Arr Bool)

def FType.text : FType → Str
  | .antenna => "antenna".toList
  | .baseline => "baseline".toList
  | .waterfall => "waterfall".toList

def FMode.text : FMode → Str
  | .metric => "metric".toList
  | .flag => "flag".toList

/-- 3071-3086. -/
def FType.ofText (s : Str) : Option FType :=
  if s = "antenna".toList then some .antenna else if s = "baseline".toList then some .baseline
  else if s = "waterfall".toList then some .waterfall else none

/-- 3090-3103. -/
def FMode.ofText (s : Str) : Option FMode :=
  if s = "metric".toList then some .metric else if s = "flag".toList then some .flag else none

variable {α P X V : Type}

/-- `write`: the file. -/
def writeFile (version : Str) (f : Flg α P X V) : Hdr α P X V :=
  { type := f.type.text, mode := f.mode.text, ntimes := some f.ntimes, times := f.times, lsts := f.lsts, nfreqs := some f.nfreqs,
    freqs := f.freqs, widths := some (.inr f.widths), spws := some f.spws, nspws := some f.nspws, flex := some f.flex,
    npols := some f.npols, pols := f.pols, tel := f.tel, history := withVersion version f.history, label := some f.label, kws := f.kws,
    a1 := if f.type = .baseline then f.rows.map Rows.a1 else none, a2 := if f.type = .baseline then f.rows.map Rows.a2 else none,
    nblts := if f.type = .baseline then f.rows.map Rows.nblts else none, ant := if f.type = .antenna then f.ant else none,
    nants := if f.type = .waterfall then none else f.nants,
    metric := if f.mode = .metric then f.metric else none, weights := if f.mode = .metric then f.weights else none,
    wsq := if f.mode = .metric then f.wsq else none, flags := if f.mode = .flag then f.flags else none }

/-- `write`: the object afterwards (3472-3475). -/
def afterWrite (version : Str) (f : Flg α P X V) : Flg α P X V := { f with history := withVersion version f.history }

/-- The number of axes (3114). -/
def FType.ndim : FType → Nat
  | .antenna => 4
  | .baseline => 3
  | .waterfall => 3

/-- `np.squeeze(x, axis=1)`. -/
def squeeze1 {D : Type} (a : Arr D) : Option (Arr D) :=
  match a.shape with
  | n :: 1 :: r => some ⟨n :: r, a.flat⟩
  | _ => none

/-- 3125-3128. -/
def fixAxes {D : Type} (n : Nat) (a : Arr D) : Option (Arr D) := if a.shape.length = n then some a else squeeze1 a

/-- `np.diff`. -/
def diffs [Sub α] : List α → List α
  | a :: b :: r => (b - a) :: diffs (b :: r)
  | _ => []

/-- 3140-3164; `even` is `_test_array_constant_spacing`. -/
def readWidths [Sub α] (even : List α → Bool) (nfreqs : Nat) (freqs : List α) : Option (α ⊕ List α) → Option (List α)
  | some (.inr l) => some l
  | some (.inl x) => some (List.replicate nfreqs x)
  | none => match diffs freqs with
    | [] => none
    | d :: r => if even freqs then some (List.replicate nfreqs d) else some (d :: r ++ [(d :: r).getLast (by simp)])

/-- 3322-3357: antennas of known telescopes. -/
def askKnown (known : Tel P X → Tel P X) (t : Tel P X) : Tel P X :=
  if t.name = none then t
  else if t.loc = none ∨ t.nums = none ∨ t.names = none ∨ t.pos = none then
    known (if t.nums = none ∧ t.names = none ∧ t.pos = none then { t with nants := none } else t)
  else t

/-- 3359-3409: what can be told from the antennas with data. -/
def fillTel (text : Nat → Str) (type : FType) (seen : List Nat) (nantsData : Option Nat) (t : Tel P X) : Tel P X :=
  let t := if t.nums = none ∧ type ≠ .waterfall ∧ (t.nants = none ∨ t.nants = nantsData) then { t with nums := some seen } else t
  let t := match t.names, t.nums with
    | none, some l => { t with names := some (l.map text) }
    | _, _ => t
  match t.nants, t.nums, t.names, t.pos with
  | none, some l, _, _ => { t with nants := some l.length }
  | none, none, some l, _ => { t with nants := some l.length }
  | none, none, none, some l => { t with nants := some l.length }
  | _, _, _, _ => t

/-- Data of a mode (3116-3128). -/
def readData (type : FType) (mode : FMode) (h : Hdr α P X V) : Option (Option (Arr α) × Option (Arr α) × Option (Arr α) × Option (Arr Bool)) :=
  match mode with
  | .metric => match h.metric.bind (fixAxes type.ndim), h.weights.bind (fixAxes type.ndim) with
    | some m, some w => match h.wsq with
      | none => some (some m, some w, none, none)
      | some q => (fixAxes type.ndim q).map (fun q => (some m, some w, some q, none))
    | _, _ => none
  | .flag => match h.flags.bind (fixAxes type.ndim) with
    | some x => some (none, none, none, some x)
    | none => none

/-- Rows (3283-3296). -/
def readRows (blNum : Option Nat → Nat → Nat → Nat) (h : Hdr α P X V) : Option Rows :=
  match h.a1, h.a2 with
  | some a1, some a2 =>
    let bl := List.zipWith (blNum h.tel.nants) a1 a2
    some ⟨bl, a1, a2, bl.dedup.length, h.nblts.getD bl.length⟩
  | _, _ => none

/-- `np.union1d(ant_1_array, ant_2_array)`. -/
def union (a b : List Nat) : List Nat := Np.unique (a ++ b)

/-- `read` of one file; `none` is an error. -/
def readFile [LinearOrder α] [Sub α] (version : Str) (known : Tel P X → Tel P X) (text : Nat → Str) (blNum : Option Nat → Nat → Nat → Nat)
    (even : List α → Bool) (base : Str) (h : Hdr α P X V) (history : Str) (telName : Option Str) : Option (Flg α P X V) :=
  match FType.ofText h.type, FMode.ofText h.mode with
  | some type, some mode =>
    let nfreqs := h.nfreqs.getD h.freqs.dedup.length
    let spws := h.spws.getD [0]
    let nspws := h.nspws.getD spws.length
    let tel := { h.tel with name := telName.or h.tel.name }
    let npols := h.npols.getD h.pols.count
    let flex := h.flex.or (if nspws = 1 then spws.head?.map (fun s => List.replicate nfreqs s) else none)
    match readData type mode h, readWidths even nfreqs h.freqs h.widths, flex with
    | some d, some widths, some flex =>
      let hist := withVersion version (h.history ++ history)
      let mk := fun (rows : Option Rows) (ant : Option (List Nat)) (nants : Option Nat) (seen : List Nat) =>
        ({ type := type, mode := mode, history := hist, label := h.label.getD [], ntimes := h.ntimes.getD h.times.dedup.length,
           times := h.times, lsts := h.lsts, nfreqs := nfreqs, freqs := h.freqs, widths := widths, nspws := nspws, spws := spws,
           flex := flex, npols := npols, pols := h.pols, tel := fillTel text type seen nants (askKnown known tel), rows := rows,
           ant := ant, nants := nants, metric := d.1, weights := d.2.1, wsq := d.2.2.1, flags := d.2.2.2, kws := h.kws,
           files := [base] } : Flg α P X V)
      match type with
      | .baseline => (readRows blNum h).map (fun r =>
          mk (some r) none (some (union r.a1 r.a2).length) (union r.a1 r.a2))
      | .antenna => h.ant.map (fun a => mk none (some a) (some (h.nants.getD a.length)) (Np.unique a))
      | .waterfall => some (mk none none none [])
    | _, _, _ => none
  | _, _ => none

/-- `read` of a list of files (3050-3056): the first is read without keywords, the others with the history. -/
def readMany {F D : Type} (read1 : F → Str → Option Str → Option D) (add : D → D → Option D) (fs : List F) (history : Str)
    (_telName : Option Str) : Option D :=
  match fs with
  | [] => none
  | f :: r => (read1 f [] none).bind fun d => r.foldlM (fun d g => (read1 g history none).bind (add d)) d

/-- What is used of an object of visibilities; `cls` is `str(indata.__class__)`. -/
structure Vis (α P X V : Type) where
  ntimes : Nat
  times : List α
  lsts : List α
  nfreqs : Nat
  freqs : List α
  widths : List α
  nspws : Nat
  spws : List Int
  flex : List Int
  npols : Nat
  pols : List Int
  tel : Tel P X
  rows : Rows
  nants : Nat
  flags : Option (Arr Bool)
  kws : Option (List (Str × V))
  files : List Str
  cls : Str

/-- What is used of an object of calibrations. -/
structure Cal (α P X : Type) where
  wide : Bool
  ntimes : Nat
  times : List α
  lsts : List α
  nfreqs : Nat
  freqs : List α
  widths : List α
  nspws : Nat
  spws : List Int
  flex : List Int
  njones : Nat
  jones : List Int
  tel : Tel P X
  ant : List Nat
  flags : Option (Arr Bool)
  files : List Str
  cls : Str

/-- What stays of the object that `from_uvdata` and `from_uvcal` are called on. -/
structure Old (α V : Type) where
  history : Str
  label : Str
  wsq : Option (Arr α)
  kws : List (Str × V)

/-- A new object (512-514). -/
def Old.fresh : Old α V := ⟨[], [], none, []⟩

/-- `mode.lower()` (3582-3590, 3743-3751). -/
def askMode (mode : Str) : Option FMode := FMode.ofText (mode.map Char.toLower)

def createdText (t : FType) : Str := "Flag object with type \"".toList ++ t.text ++ "\" created. ".toList

def copiedText (cls : Str) : Str := " Flags copied from ".toList ++ cls ++ " object.".toList

/-- 3608-3612, 3650-3652, 3674-3675. -/
def newHistory (version old : Str) (t : FType) (copied : Option Str) (history : Str) : Str :=
  let h := withVersion version (old ++ createdText t) ++ (copied.map copiedText).getD []
  if history <:+: h then h else h ++ history

/-- New data of a mode (3622-3628, 3658-3663, 3668-3669). -/
def newData [Zero α] [One α] (mode : FMode) (shape : List Nat) (wsq : Option (Arr α)) :
    Option (Arr α) × Option (Arr α) × Option (Arr α) × Option (Arr Bool) :=
  match mode with
  | .metric => (some (full shape 0), some (full shape 1), wsq, none)
  | .flag => (none, none, none, some (full shape false))

/-- `from_uvdata`. -/
def fromVis [LinearOrder α] [Zero α] [One α] (version : Str) (old : Old α V) (d : Vis α P X V) (mode : Str) (copyFlags waterfall : Bool)
    (history label : Str) : Option (Flg α P X V) :=
  (askMode mode).bind fun mode =>
    let kws := d.kws.getD old.kws
    if waterfall then
      if copyFlags then none
      else
        let ts := Np.unique d.times
        let x := newData mode [d.ntimes, d.nfreqs, d.npols] old.wsq
        (ts.mapM (fun t => d.lsts[d.times.idxOf t]?)).map fun ls =>
          { type := .waterfall, mode := mode, history := newHistory version old.history .waterfall none history,
            label := old.label ++ label, ntimes := d.ntimes, times := ts, lsts := ls, nfreqs := d.nfreqs, freqs := d.freqs,
            widths := d.widths, nspws := d.nspws, spws := d.spws, flex := d.flex, npols := d.npols, pols := .nums d.pols, tel := d.tel,
            rows := none, ant := none, nants := none, metric := x.1, weights := x.2.1, wsq := x.2.2.1, flags := x.2.2.2, kws := kws,
            files := d.files }
    else
      let m := if copyFlags then .flag else mode
      let x := if copyFlags then (none, none, none, d.flags)
        else newData mode [d.rows.nblts, d.nfreqs, d.npols] old.wsq
      some
        { type := .baseline, mode := m, history := newHistory version old.history .baseline (if copyFlags then some d.cls else none) history,
          label := old.label ++ label, ntimes := d.ntimes, times := d.times, lsts := d.lsts, nfreqs := d.nfreqs, freqs := d.freqs,
          widths := d.widths, nspws := d.nspws, spws := d.spws, flex := d.flex, npols := d.npols, pols := .nums d.pols, tel := d.tel,
          rows := some d.rows, ant := none, nants := some d.nants, metric := x.1, weights := x.2.1, wsq := x.2.2.1, flags := x.2.2.2,
          kws := kws, files := d.files }

/-- `from_uvcal`. -/
def fromCal [Zero α] [One α] (version : Str) (old : Old α V) (d : Cal α P X) (mode : Str) (copyFlags waterfall : Bool)
    (history label : Str) : Option (Flg α P X V) :=
  if d.wide then none
  else (askMode mode).bind fun mode =>
    if waterfall then
      if copyFlags then none
      else
        let x := newData mode [d.ntimes, d.nfreqs, d.njones] old.wsq
        some
          { type := .waterfall, mode := mode, history := newHistory version old.history .waterfall none history,
            label := old.label ++ label, ntimes := d.ntimes, times := d.times, lsts := d.lsts, nfreqs := d.nfreqs, freqs := d.freqs,
            widths := d.widths, nspws := d.nspws, spws := d.spws, flex := d.flex, npols := d.njones, pols := .nums d.jones, tel := d.tel,
            rows := none, ant := none, nants := none, metric := x.1, weights := x.2.1, wsq := x.2.2.1, flags := x.2.2.2, kws := old.kws,
            files := d.files }
    else
      let m := if copyFlags then .flag else mode
      let x := if copyFlags then (none, none, none, d.flags)
        else newData mode [d.ant.length, d.nfreqs, d.ntimes, d.njones] old.wsq
      some
        { type := .antenna, mode := m, history := newHistory version old.history .antenna (if copyFlags then some d.cls else none) history,
          label := old.label ++ label, ntimes := d.ntimes, times := d.times, lsts := d.lsts, nfreqs := d.nfreqs, freqs := d.freqs,
          widths := d.widths, nspws := d.nspws, spws := d.spws, flex := d.flex, npols := d.njones, pols := .nums d.jones, tel := d.tel,
          rows := none, ant := some d.ant, nants := some d.ant.length, metric := x.1, weights := x.2.1, wsq := x.2.2.1, flags := x.2.2.2,
          kws := old.kws, files := d.files }

/-- What an object is made from, with everything `__init__` is given (515-583). -/
inductive Source (F : Type) (α P X V : Type)
  | path (f : F)
  | vis (d : Vis α P X V)
  | cal (d : Cal α P X)

/-- `UVFlag(x, ...)` for one thing. -/
def initOne [LinearOrder α] [Zero α] [One α] {F : Type} (version : Str) (read1 : F → Str → Option Str → Option (Flg α P X V))
    (s : Source F α P X V) (mode : Str) (copyFlags waterfall : Bool) (history label : Str) (telName : Option Str) :
    Option (Flg α P X V) :=
  match s with
  | .path f => read1 f history telName
  | .vis d => fromVis version Old.fresh d mode copyFlags waterfall history label
  | .cal d => fromCal version Old.fresh d mode copyFlags waterfall history label

/-- `UVFlag([x, y, ...], ...)` (515-546): no telescope name goes on, and the label only to the first. -/
def initMany [LinearOrder α] [Zero α] [One α] {F : Type} (version : Str) (read1 : F → Str → Option Str → Option (Flg α P X V))
    (add : Flg α P X V → Flg α P X V → Option (Flg α P X V)) (ss : List (Source F α P X V)) (mode : Str) (copyFlags waterfall : Bool)
    (history label : Str) (_telName : Option Str) : Option (Flg α P X V) :=
  match ss with
  | [] => none
  | s :: r => (initOne version read1 s mode copyFlags waterfall history label none).bind fun f =>
      r.foldlM (fun f t => (initOne version read1 t mode copyFlags waterfall history [] none).bind (add f)) f

end Verif.FlagIo
