import Mathlib.Data.Prod.Lex
import Verif.Pol.Model
import Verif.Slices.Spec

/-!
# Visibilities in measurement sets

Model of `MS.write_ms`, `MS._read_ms_main` and `MS.read_ms` (`src/pyuvdata/uvdata/ms.py` 45-374, 376-824, 826-1038) and of the
tables they use besides the main table: `write_ms_data_description`, `write_ms_polarization`, `write_ms_spectral_window`,
`write_ms_field` and the functions that read them (`src/pyuvdata/utils/io/ms.py` 480-562, 565-693, 792-817, 1198-1333, 1759-1873).

A measurement set is a list of records with the tables of data descriptions, windows, polarizations and fields. A cell of the
main table with visibilities is a list (channels) of lists (polarizations). Times, lengths and weights are exact, so that the
conversions of times are left out. An entry of the catalog of phase centers is kept as it is (see `Verif.MsCat` for what
becomes of it). Not modelled: phasing of unprojected data (`force_phase`), columns of model and corrected data, `read_weights=False`,
files without `WEIGHT_SPECTRUM`, history, antennas and the other tables; the final `reorder_pols` of `read_ms`
(see `Verif.Pol`) and check (see `Verif.Check`).
-/

namespace Verif.MsVis
open Verif.Np Verif.Slices

/-- Errors: `ValueError`/`KeyError`, an `AssertionError`, an error of casacore (cells of different shapes in one column). -/
inductive Err
  | value | assertion | casacore
deriving DecidableEq

variable {T K U C E : Type}

/-- A visibility with its flag and weight. -/
structure Vis (C K : Type) where
  d : C
  flag : Bool
  n : K

/-- The labels of a baseline-time. -/
structure Row (T K U : Type) where
  time : T
  a1 : Nat
  a2 : Nat
  int : K
  uvw : U
  pc : Int
  scan : Int

structure Chan (K : Type) where
  spw : Int
  freq : K
  width : K

/-- The object; `data` is a function of the positions of the row, the channel and the polarization. -/
structure Obj (T K U C E : Type) where
  rows : List (Row T K U)
  chans : List (Chan K)
  spws : List Int
  pols : List Int
  flexPol : Option (List Int)
  cats : List (Int × E)
  /-- There are rows of the type "unprojected". -/
  unproj : Bool
  data : Nat → Nat → Nat → Vis C K

/-- The labels in a record of the main table. -/
structure Lab (T K U : Type) where
  time : T
  a1 : Nat
  a2 : Nat
  int : K
  uvw : U
  field : Nat
  scan : Int

structure Rec (T K U C : Type) where
  lab : Lab T K U
  /-- `DATA_DESC_ID` -/
  dd : Nat
  /-- `DATA`, `FLAG` and `WEIGHT_SPECTRUM` -/
  vis : List (List (Vis C K))
  /-- `WEIGHT` -/
  weight : List K

/-- A row of the table of windows: `ASSOC_SPW_ID`, and frequencies and widths of channels. -/
structure Win (K : Type) where
  id : Int
  chans : List (K × K)

structure File (T K U C E : Type) where
  main : List (Rec T K U C)
  /-- `SPECTRAL_WINDOW_ID` and `POLARIZATION_ID` -/
  dds : List (Nat × Nat)
  wins : List (Win K)
  /-- `CORR_TYPE` -/
  polTab : List (List Nat)
  /-- `SOURCE_ID` and the entry -/
  fields : List (Int × E)

/-- Operations on numbers: complex conjugation, the opposite of a vector, the median, `np.allclose` of all labels, and the value
that arrays are filled with. -/
structure Ops (T K U C : Type) where
  conj : C → C
  neg : U → U
  med : List K → K
  close : Lab T K U → Lab T K U → Bool
  zero : C
  one : K
  none : K

def Ops.flipV (w : Ops T K U C) (flip : Bool) (v : Vis C K) : Vis C K := if flip then { v with d := w.conj v.d } else v

def Ops.flipU (w : Ops T K U C) (flip : Bool) (u : U) : U := if flip then w.neg u else u

/-- `POL_AIPS2CASA_DICT` (42-59); `none` is a `KeyError`. -/
def casaOf (p : Int) : Option Nat := ((Verif.Pol.casaOrder.take 12).idxOf? p).map (· + 1)

/-- `POL_CASA2AIPS_DICT`. -/
def aipsOf (c : Nat) : Option Int := if c = 0 then none else (Verif.Pol.casaOrder.take 12)[c - 1]?

/-- The index by which polarizations are taken (ms.py 126-129), as the positions it picks; `idx` is the result of
`determine_pol_order`. -/
def polCols (idx : List Nat) (npols : Nat) : Option (List Nat) := allPicks npols (convert (.list idx) (1/10) (some 1) true).1

/-- `field_ids` (346-348). -/
def fieldOf (o : Obj T K U C E) (pc : Int) : Nat := (o.cats.map (fun c => c.1)).idxOf pc

def labOf (w : Ops T K U C) (flip : Bool) (o : Obj T K U C E) (r : Row T K U) : Lab T K U :=
  ⟨r.time, r.a1, r.a2, r.int, w.flipU flip r.uvw, fieldOf o r.pc, r.scan⟩

/-- The positions of the channels of a window. -/
def chansOf (o : Obj T K U C E) (s : Int) : List Nat := whereIdx (fun c => decide (c.spw = s)) o.chans

/-- A cell: the channels `fs` and the polarizations `cols` of row `r`. -/
def cell (w : Ops T K U C) (flip : Bool) (o : Obj T K U C E) (cols : List Nat) (r : Nat) (fs : List Nat) : List (List (Vis C K)) :=
  fs.map (fun f => cols.map (fun c => w.flipV flip (o.data r f c)))

/-- 199-219: one window. The weight is the median of all polarizations in their own order. -/
def mainOne (w : Ops T K U C) (flip : Bool) (o : Obj T K U C E) (cols : List Nat) : List (Rec T K U C) :=
  o.rows.zipIdx.map (fun x => ⟨labOf w flip o x.1, 0, cell w flip o cols x.2 (List.range o.chans.length),
    (List.range o.pols.length).map (fun p => w.med ((List.range o.chans.length).map (fun f => (o.data x.2 f p).n)))⟩)

/-- 220-303: several windows, scan by scan, window by window. -/
def mainMany (w : Ops T K U C) (flip : Bool) (o : Obj T K U C E) (cols : List Nat) : List (Rec T K U C) :=
  (unique (o.rows.map (fun r => r.scan))).flatMap (fun s => o.spws.zipIdx.flatMap (fun k =>
    (o.rows.zipIdx.filter (fun x => decide (x.1.scan = s))).map (fun x =>
      ⟨labOf w flip o x.1, k.2, cell w flip o cols x.2 (chansOf o k.1),
        cols.map (fun c => w.med ((chansOf o k.1).map (fun f => (o.data x.2 f c).n)))⟩)))

/-- `write_ms_spectral_window`. -/
def winTab (o : Obj T K U C E) : List (Win K) :=
  o.spws.map (fun s => ⟨s, (o.chans.filter (fun c => decide (c.spw = s))).map (fun c => (c.freq, c.width))⟩)

/-- `write_ms_data_description`; the column of polarizations is zero if not written. -/
def ddTab (o : Obj T K U C E) : List (Nat × Nat) :=
  (List.range o.spws.length).map (fun k => (k, match o.flexPol with
    | none => 0
    | some l => (unique l).idxOf (l.getD k 0)))

/-- `write_ms_polarization` (1836-1873): names of pseudo-Stokes polarizations are no pairs of feeds, which is an error. -/
def polTabOf (o : Obj T K U C E) (cols : List Nat) : Except Err (List (List Nat)) :=
  let ps := match o.flexPol with
    | none => [cols.map (fun c => o.pols.getD c 0)]
    | some l => (unique l).map (fun p => [p])
  if ps.all (fun l => l.all (fun p => decide (-8 ≤ p ∧ p ≤ -1))) then
    .ok (ps.map (fun l => l.map (fun p => (casaOf p).getD 0)))
  else .error .value

/-- `write_ms`. `idx` is the result of `determine_pol_order`. -/
def write (w : Ops T K U C) (flip : Bool) (idx : List Nat) (o : Obj T K U C E) : Except Err (File T K U C E) :=
  if o.unproj then .error .value
  else match polCols idx o.pols.length with
    | none => .error .value
    | some cols => match polTabOf o cols with
      | .error e => .error e
      | .ok t => .ok ⟨if o.spws.length = 1 then mainOne w flip o cols else mainMany w flip o cols, ddTab o, winTab o, t, o.cats⟩

/-- The object after `write_ms`: with one window the conjugation is made in place (`out=temp_vals`, 206), and a slice of an array
shares its memory. -/
def afterWrite (w : Ops T K U C) (flip : Bool) (idx : List Nat) (o : Obj T K U C E) : Obj T K U C E :=
  match (convert (.list idx) (1/10) (some 1) true).1 with
  | [.slice s] => if flip && decide (o.spws.length = 1) then
      { o with data := fun r f p => if p ∈ (s.sel o.pols.length).getD [] then w.flipV true (o.data r f p) else o.data r f p }
    else o
  | _ => o

/-- What is known of a data description when it is read (873-889). -/
structure Desc (K : Type) where
  key : Nat
  id : Int
  chans : List (K × K)
  corr : List Nat

/-- The data descriptions with their windows and polarizations; those of one channel are left out if asked (873-893). -/
def descs (ignoreSingle : Bool) (f : File T K U C E) : List (Desc K) :=
  (f.dds.zipIdx.map (fun x => ⟨x.2, ((f.wins[x.1.1]?).map (fun v => v.id)).getD 0, ((f.wins[x.1.1]?).map (fun v => v.chans)).getD [],
    (f.polTab[x.1.2]?).getD []⟩)).filter (fun d => !(ignoreSingle && decide (d.chans.length = 1)))

/-- Records of a data description. -/
def recsOf (f : File T K U C E) (d : Desc K) : List (Rec T K U C) := f.main.filter (fun r => decide (r.dd = d.key))

/-- Data descriptions of which there are records. -/
def present (ignoreSingle : Bool) (f : File T K U C E) : List (Desc K) :=
  (descs ignoreSingle f).filter (fun d => !(recsOf f d).isEmpty)

/-- 931-934: the frequencies of all descriptions are set where the window has the number; arrays of another length
(but one) are an error. -/
def freqsFit (ds : List (Desc K)) (ids : List Int) : Bool :=
  ds.all (fun d => decide (d.chans.length = ids.count d.id) || decide (d.chans.length = 1))

/-- The frequency and width of channel `j` of window `id`: those of the last description. -/
def freqAt (ds : List (Desc K)) (none : K) (id : Int) (j : Nat) : K × K :=
  match (ds.filter (fun d => decide (d.id = id))).getLast? with
  | some d => (d.chans[if d.chans.length = 1 then 0 else j]?).getD (none, none)
  | .none => (none, none)

/-- The channels of the windows. -/
def chansFrom (ds : List (Desc K)) (none : K) (l : List (Int × Nat)) : List (Chan K) :=
  l.flatMap (fun x => (List.range x.2).map (fun j => ⟨x.1, (freqAt ds none x.1 j).1, (freqAt ds none x.1 j).2⟩))

/-- `read_ms_field` (684-693) and 1008-1018: the catalog, and the number of the phase center for a field. -/
def idsGood (f : File T K U C E) : Bool := f.fields.all (fun c => decide (0 ≤ c.1))

def catsOf (f : File T K U C E) : List (Int × E) :=
  if idsGood f then f.fields else f.fields.zipIdx.map (fun x => ((x.2 : Int), x.1.2))

def pcOf (f : File T K U C E) (field : Nat) : Int :=
  if idsGood f then ((f.fields[field]?).map (fun c => c.1)).getD 0 else field

def rowOf (w : Ops T K U C) (flip : Bool) (f : File T K U C E) (l : Lab T K U) : Row T K U :=
  ⟨l.time, l.a1, l.a2, l.int, w.flipU flip l.uvw, pcOf f l.field, l.scan⟩

/-- The value arrays are filled with. -/
def Ops.empty (w : Ops T K U C) : Vis C K := ⟨w.zero, true, w.one⟩

/-- 509-557: one data description; all records of the file are read. -/
def readOne (w : Ops T K U C) (flip : Bool) (f : File T K U C E) (ds : List (Desc K)) (d : Desc K) : Except Err (Obj T K U C E) :=
  if f.main.any (fun r => decide (r.dd ≠ d.key)) then .error .casacore
  else if !freqsFit ds (List.replicate d.chans.length d.id) then .error .value
  else .ok
    { rows := f.main.map (fun r => rowOf w flip f r.lab)
      chans := chansFrom ds w.none [(d.id, d.chans.length)]
      spws := [d.id]
      pols := d.corr.map (fun c => (aipsOf c).getD 0)
      flexPol := none
      cats := catsOf f
      unproj := false
      data := fun r c p => w.flipV flip ((((f.main[r]?.bind (fun x => x.vis[c]?)).bind (fun x => x[p]?))).getD w.empty) }

/-- `(time, ant1, ant2)` -/
def Lab.key (l : Lab T K U) : T ×ₗ (Nat ×ₗ Nat) := toLex (l.time, toLex (l.a1, l.a2))

/-- `unique_blts` (587-592). -/
def blts [LinearOrder T] (f : File T K U C E) (ps : List (Desc K)) : List (T ×ₗ (Nat ×ₗ Nat)) :=
  unique ((f.main.filter (fun r => decide (r.dd ∈ ps.map (fun d => d.key)))).map (fun r => r.lab.key))

/-- `pol_list` before its translation (602-604). -/
def polList (ps : List (Desc K)) : List Nat := unique (ps.flatMap (fun d => d.corr))

/-- `pol_idx` (646-652): the positions of the polarizations in the order of the list, not in that of the data description. -/
def polIdx (ps : List (Desc K)) (d : Desc K) : List Nat := whereIdx (fun c => decide (c ∈ d.corr)) (polList ps)

/-- The record that is used for a baseline-time: the last of the data description, since it is written last. -/
def recAt [LinearOrder T] (f : File T K U C E) (d : Desc K) (k : T ×ₗ (Nat ×ₗ Nat)) : Option (Rec T K U C) :=
  ((recsOf f d).filter (fun r => decide (r.lab.key = k))).getLast?

/-- The labels of a baseline-time: those of the first data description that has it (717-753). -/
def labAt [LinearOrder T] (f : File T K U C E) (ps : List (Desc K)) (k : T ×ₗ (Nat ×ₗ Nat)) : Option (Lab T K U) :=
  (ps.findSome? (fun d => recAt f d k)).map (fun r => r.lab)

/-- 731: a later record has other labels than the one used. -/
def varies [LinearOrder T] (w : Ops T K U C) (f : File T K U C E) : List (Desc K) → List (Desc K) → Bool
  | _, [] => false
  | before, d :: ds => (recsOf f d).any (fun r => match labAt f before r.lab.key with
      | some l => !w.close r.lab l
      | .none => false) || varies w f (before ++ [d]) ds

/-- Windows in the order of their numbers, with the number of channels (614-630). -/
def winList (ps : List (Desc K)) : List (Int × Nat) :=
  (unique (ps.map (fun d => d.id))).map (fun i => (i, ((ps.find? (fun d => decide (d.id = i))).map (fun d => d.chans.length)).getD 0))

/-- The window and the position in it of channel `c`. -/
def winPos : List (Int × Nat) → Nat → Option (Int × Nat)
  | [], _ => none
  | x :: l, c => if c < x.2 then some (x.1, c) else winPos l (c - x.2)

/-- 661-665. -/
def makeFlex (allowFlex : Bool) (ds ps : List (Desc K)) : Bool :=
  allowFlex && ps.all (fun d => decide ((polIdx ps d).length = 1)) && decide (1 < (polList ps).length) &&
    decide (ds.length = ps.length)

/-- The visibility in row `k`, channel `j` of data description `d` and polarization `p` (679-801). -/
def visAt [LinearOrder T] (w : Ops T K U C) (flip : Bool) (f : File T K U C E) (idx : List Nat) (d : Desc K) (k : T ×ₗ (Nat ×ₗ Nat)) (j p : Nat) :
    Vis C K :=
  if p ∈ idx then
    (((recAt f d k).bind (fun r => (r.vis[j]?).bind (fun x => x[idx.idxOf p]?))).map (w.flipV flip)).getD w.empty
  else w.empty

/-- 565-824: several data descriptions. -/
def readSeveral [LinearOrder T] (w : Ops T K U C) (flip allowFlex raiseErr : Bool) (f : File T K U C E) (ds ps : List (Desc K)) :
    Except Err (Obj T K U C E) :=
  if !decide (ps.map (fun d => d.id)).Nodup then .error .assertion
  else if raiseErr && varies w f [] ps then .error .value
  else if !freqsFit ds ((winList ps).flatMap (fun x => List.replicate x.2 x.1)) then .error .value
  else
    let flex := makeFlex allowFlex ds ps
    .ok
    { rows := (blts f ps).filterMap (fun k => (labAt f ps k).map (rowOf w flip f))
      chans := chansFrom ds w.none (winList ps)
      spws := unique (ps.map (fun d => d.id))
      pols := if flex then [0] else (polList ps).map (fun c => (aipsOf c).getD 0)
      flexPol := if flex then some ((unique (ps.map (fun d => d.id))).map (fun i =>
          ((ps.find? (fun d => decide (d.id = i))).bind (fun d => (d.corr.head?).bind aipsOf)).getD 0)) else none
      cats := catsOf f
      unproj := false
      data := fun r c p => match (blts f ps)[r]?, winPos (winList ps) c with
        | some k, some (i, j) => match ps.find? (fun d => decide (d.id = i)) with
          | some d => visAt w flip f (if flex then [0] else polIdx ps d) d k j p
          | none => w.empty
        | _, _ => w.empty }

/-- `read_ms` (869-934, 1008-1018). -/
def read [LinearOrder T] (w : Ops T K U C) (flip ignoreSingle allowFlex raiseErr : Bool) (f : File T K U C E) :
    Except Err (Obj T K U C E) :=
  match present ignoreSingle f with
  | [] => .error .value
  | [d] => readOne w flip f (descs ignoreSingle f) d
  | ps => readSeveral w flip allowFlex raiseErr f (descs ignoreSingle f) ps

end Verif.MsVis
