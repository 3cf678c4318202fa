import Mathlib.Algebra.Field.Basic
import Mathlib.Algebra.Order.Group.Abs
import Mathlib.Algebra.Star.Basic
import Mathlib.Data.List.Infix
import Verif.Pol.Model

/-! # Files of FHD

`UVData.read_fhd` (src/pyuvdata/uvdata/fhd.py) and `UVCal.read_fhd_cal` (src/pyuvdata/uvcal/fhd_cal.py). IDL structures are records; arrays are functions
of positions. Modelled are the choice of files by polarization, data, flags, weights, baselines, uvw coordinates and times of `read_fhd` with
`read_data=True`, and gains, flags, qualities, times and labels of `read_fhd_cal`. Not modelled: the antenna layout, phase centers, settings files and
warnings. Names are compared by letters of ASCII without regard to case; arithmetic is exact. -/

namespace Verif.Fhd

open Verif.Pol (Str)

/-- The four polarizations (357), in the order of `lin_pol_order`. -/
inductive P
  | xx | yy | xy | yx
deriving DecidableEq, Repr

def linOrder : List P := [.xx, .yy, .xy, .yx]

/-- `linear_pol_dict` (357). -/
def P.num : P → Int
  | .xx => -5
  | .yy => -6
  | .xy => -7
  | .yx => -8

/-- Errors: several files of a polarization, other names, data and models together, no files, a missing key. -/
inductive Err
  | multiple | unrecognized | mixed | none | key | index
deriving DecidableEq, Repr

/-- The observation of a file; positions of baseline-times are `0 … nblts - 1`. -/
structure Obs (K : Type) where
  polNames : List P
  /-- `TILE_A` and `TILE_B`, from one. -/
  tileA : Nat → Nat
  tileB : Nat → Nat
  nTime : Nat
  jdate : List K
  binOffset : List Nat

/-- A file of visibilities: `vis_ptr`, `vis_model_ptr` and `obs`. -/
structure File (K V : Type) where
  name : Str
  vis : Option (Nat → Nat → V)
  model : Option (Nat → Nat → V)
  obs : Obs K

/-- The polarization of a name (63-80). -/
def classify (name : Str) : Option P :=
  if "xx.sav".toList.isSuffixOf (name.map Char.toLower) then some .xx
  else if "yy.sav".toList.isSuffixOf (name.map Char.toLower) then some .yy
  else if "xy.sav".toList.isSuffixOf (name.map Char.toLower) then some .xy
  else if "yx.sav".toList.isSuffixOf (name.map Char.toLower) then some .yx
  else none

/-- `"_vis_model_" in filename` (82). -/
def isModel (name : Str) : Bool := decide ("_vis_model_".toList <:+: name)

variable {K V : Type}

/-- One file (60-92). The state is `datafiles_dict` and `use_model`. -/
def addFile (st : List (P × File K V) × Option Bool) (f : File K V) : Except Err (List (P × File K V) × Option Bool) :=
  match classify f.name with
  | none => .error .unrecognized
  | some p =>
    if p ∈ st.1.map Prod.fst then .error .multiple
    else match st.2 with
      | none => .ok (st.1 ++ [(p, f)], some (isModel f.name))
      | some b => if isModel f.name ≠ b then .error .mixed else .ok (st.1 ++ [(p, f)], some b)

/-- Data of a file (140-143); `none` is a `KeyError`. -/
def File.data (f : File K V) (m : Bool) : Option (Nat → Nat → V) := if m then f.model else f.vis

/-- `vis_weights_data[pol]` (169-170): the last array of this name. -/
def weightsOf (names : List P) (w : List (Nat → Nat → K)) (p : P) : Option (Nat → Nat → K) :=
  ((names.zip w).filter fun x => decide (x.1 = p)).getLast?.map Prod.snd

/-- Data, flags and weights by baseline-time, channel and polarization. -/
structure Out (K V : Type) where
  pols : List P
  data : Nat → Nat → Nat → V
  flag : Nat → Nat → Nat → Bool
  nsample : Nat → Nat → Nat → K
  obs : Obs K

/-- The cells of one polarization (393-399). -/
structure Cells (K V : Type) where
  pol : P
  vis : Nat → Nat → V
  w : Nat → Nat → K

/-- Data and weights of the polarization of a position (392-393). -/
def cellsOf (d : List (P × File K V)) (m : Bool) (names : List P) (weights : List (Nat → Nat → K)) (p : P) : Except Err (Cells K V) :=
  match d.find? fun x => decide (x.1 = p) with
  | none => .error .key
  | some x => match x.2.data m, weightsOf names weights p with
    | some v, some w => .ok ⟨p, v, w⟩
    | _, _ => .error .key

/-- `read_fhd` with data (56-170, 356-399). The observation is that of the last file (144-147). -/
def readVis [Star V] [Zero V] [LinearOrder K] [AddGroup K] (files : List (File K V)) (weights : List (Nat → Nat → K)) : Except Err (Out K V) :=
  match files.foldlM addFile ([], none) with
  | .error e => .error e
  | .ok (d, m) =>
    match d.getLast? with
    | none => .error .none
    | some last =>
      if last.2.obs.polNames.length < weights.length then .error .index
      else match (linOrder.filter fun p => decide (p ∈ d.map Prod.fst)).mapM (cellsOf d (m.getD false) last.2.obs.polNames weights) with
        | .error e => .error e
        | .ok cells => .ok
          { pols := cells.map Cells.pol
            data := fun b c k => match cells[k]? with
              | some x => star (x.vis b c)
              | none => 0
            flag := fun b c k => match cells[k]? with
              | some x => decide (x.w b c ≤ 0)
              | none => false
            nsample := fun b c k => match cells[k]? with
              | some x => |x.w b c|
              | none => 0
            obs := last.2.obs }

/-- An assignment to a slice of an array; a last bound of `none` is the end. -/
def setSlice (a : Nat) (b : Option Nat) (v : K) (x : Nat → K) (i : Nat) : K :=
  if a ≤ i ∧ b.all (fun b => decide (i < b)) = true then v else x i

/-- `time_array` (190-204); `none` is an `IndexError`. -/
def times [Zero K] (o : Obs K) : Option (Nat → K) :=
  if o.nTime = 1 then o.jdate.head?.map fun t _ => t
  else (List.range o.jdate.length).foldlM (fun x ii =>
    (o.jdate[ii]?).bind fun t => (o.binOffset[ii]?).bind fun a =>
      if ii < o.jdate.length - 1 then (o.binOffset[ii + 1]?).map fun b => setSlice a (some b) t x
      else some (setSlice a none t x)) fun _ => 0

/-- The antenna number of a tile (328-331): positions are one less than tiles, and a position of -1 is the last one. -/
def antOf (numbers : List Nat) (tile : Nat) : Option Nat := if tile = 0 then numbers.getLast? else numbers[tile - 1]?

/-- uvw coordinates (351-354): `c` is the speed of light. -/
def uvw [Ring K] (c u : K) : K := (-1) * u * c

/-! ## Calibrations -/

/-- `cal` and the parts of `obs` that are used; gains and convergence have positions of antenna and channel, one array for each Jones term. -/
structure CalFile (K V : Type) where
  gain : List (Nat → Nat → V)
  residual : List (Nat → Nat → V)
  conv : List (Nat → Nat → K)
  nPol : Nat
  tileUse : List Nat
  freqUse : List Nat
  jdate : List K
  timeUse : List Nat
  timeRes : K

structure CalOut (K V : Type) where
  jones : List Int
  gain : Nat → Nat → Nat → V
  flag : Nat → Nat → Nat → Bool
  qual : Nat → Nat → Nat → K
  range : K × K
  divide : Bool
  gainScale : String
  polConvention : Option String

/-- Arrays of Jones terms put into one (386-390). -/
def stack {β : Type} [Zero β] (l : List (Nat → Nat → β)) (a c j : Nat) : β :=
  match l[j]? with
  | some x => x a c
  | none => 0

/-- Times that are used (101). -/
def usedTimes (f : CalFile K V) : List K := ((f.jdate.zip f.timeUse).filter fun x => decide (0 < x.2)).map Prod.fst

/-- `read_fhd_cal` with data (92-116, 235-239, 354-419, 451-454). Line 238 sets an attribute `pol_convetions`, and no other line sets the convention. -/
def readCal [Field K] [LinearOrder K] [Add V] [Zero V] (raw : Bool) (f : CalFile K V) : Option (CalOut K V) :=
  match (usedTimes f).min?, (usedTimes f).max? with
  | some lo, some hi => some
    { jones := if f.nPol = 1 then [-5] else [-5, -6]
      gain := fun a c j => if raw then stack f.gain a c j + stack f.residual a c j else stack f.gain a c j
      flag := fun a c _ => decide (f.tileUse[a]? = some 0) || decide (f.freqUse[c]? = some 0)
      qual := stack f.conv
      range := (lo - f.timeRes / (24 * 3600) / 4, hi + f.timeRes / (24 * 3600) / 4)
      divide := true
      gainScale := "Jy"
      polConvention := none }
  | _, _ => none

end Verif.Fhd
