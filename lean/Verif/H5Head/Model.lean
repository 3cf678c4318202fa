import Verif.History.Model
import Mathlib.Data.List.Sort
import Mathlib.Data.List.DropRight
import Mathlib.Order.Lex
import Mathlib.Data.List.Lex

/-!
# The header of uvh5 files

Model of `UVH5._write_header` (`src/pyuvdata/uvdata/uvh5.py` 1129-1236), `Telescope.write_hdf5_header`
(`src/pyuvdata/telescopes.py` 908-938), the class `HDF5Meta` (`src/pyuvdata/utils/io/hdf5.py` 538-734), the properties of
`FastUVH5Meta` with values from the header (`uvh5.py` 100-140, 181-277, 407-422), `Telescope.from_hdf5` (`telescopes.py`
844-906) and `UVH5._read_header_with_fast_meta` (`uvh5.py` 463-656).

Simplifications.  Numbers and arrays of numbers are values of a type `V`, stored and read exactly (counts are natural
numbers).  The position of the telescope is its latitude, longitude and height; conversions are exact.  Numbers of phase
centers are not negative.  `h5py` is a tree: names are split at `/`, a name can be used once, members of groups are
listed in the order of their names, strings are bytes without trailing zeros, and `np.bytes_` takes ASCII only.  Files in
the old formats (no catalog of phase centers, no sidereal times, arrays with an axis for windows) are not modelled, nor
are arguments of the reader that override the header.  What the arrays say about the layout of the rows (`det`, see C136),
the numbers of baselines (`blOf`, see C01), the numbers of windows of each channel if there are none in the file (`fill`)
and the table of known telescopes (`known`, see C149) are parameters.
-/

namespace Verif.H5Head
open Verif.Pol (Str)

/-- What is in a file: strings of fixed and of variable length, arrays of strings, nothing (`h5py.Empty`), numbers,
counts, truth values, groups. -/
inductive Node (V : Type)
  | bytes (s : Str)
  | vlen (s : Str)
  | texts (l : List Str)
  | empty
  | num (v : V)
  | nat (n : Nat)
  | bool (b : Bool)
  | group (l : List (Str × Node V))

/-- Values of keywords and of the catalog: strings, `None`, numbers, byte strings, lists of strings; `junk` is text that
was never written. -/
inductive Val (V : Type)
  | text (s : Str)
  | none
  | num (v : V)
  | raw (s : Str)
  | list (l : List Str)
  | junk
deriving DecidableEq

structure Obj (V : Type) where
  /-- numbers and arrays by the name in the file -/
  num : Str → Option V
  nat : Str → Option Nat
  txt : Str → Option Str
  bool : Str → Option Bool
  antNames : List Str
  bltOrder : Option (List Str)
  catalog : List (Nat × List (Str × Val V))
  keywords : List (Str × Val V)

variable {V : Type}

def seq {α : Type} : List (Option α) → Option (List α)
  | [] => some []
  | x :: l => match x, seq l with
    | some a, some m => some (a :: m)
    | _, _ => none

/-- `np.bytes_(s)` stored and read again. -/
def enc (s : Str) : Option Str :=
  if s.all (fun c => decide (c.toNat < 128)) then some (s.rdropWhile (fun c => c.toNat == 0)) else none

def lookup {α : Type} (l : List (Str × α)) (n : Str) : Option α :=
  (l.find? (fun e => decide (e.1 = n))).map (·.2)

/-- `group[name] = value` of `h5py` for the parts of a name. -/
def put (n : Node V) : List Str → List (Str × Node V) → Option (List (Str × Node V))
  | [], _ => none
  | [c], l => match lookup l c with
    | none => some (l ++ [(c, n)])
    | some _ => none
  | c :: d :: rest, l => match lookup l c with
    | none => (put n (d :: rest) []).map (fun g => l ++ [(c, .group g)])
    | some (.group g) => (put n (d :: rest) g).map (fun g' => l.map (fun e => if e.1 = c then (c, .group g') else e))
    | some _ => none

/-- The parts of a name. -/
def parts (name : Str) : List Str := (name.splitOn '/').filter (fun c => decide (c ≠ [] ∧ c ≠ ['.']))

/-- `group[name] = value`; a name that begins with a slash is stored elsewhere in the file. -/
def store (l : List (Str × Node V)) (name : Str) (n : Node V) : Option (List (Str × Node V)) :=
  if name.head? = some '/' then some l else put n (parts name) l

/-- Uvh5.py 1180-1185 and 1225-1231. -/
def ofVal : Val V → Option (Node V)
  | .text s => (enc s).map .bytes
  | .none => some .empty
  | .num v => some (.num v)
  | .raw s => some (.vlen s)
  | .list l => some (.texts l)
  | .junk => none

/-- A group with these members, in this order. -/
def writeGroup : List (Str × Val V) → List (Str × Node V) → Option (List (Str × Node V))
  | [], g => some g
  | (k, v) :: rest, g => match ofVal v with
    | none => none
    | some n => match store g k n with
      | none => none
      | some g' => writeGroup rest g'

/-- `str` of a number. -/
def digits (n : Nat) : Str := Nat.toDigits 10 n

/-- The catalog, uvh5.py 1176-1185. -/
def writeCatalog (c : List (Nat × List (Str × Val V))) : Option (Node V) :=
  match seq (c.map (fun e => (writeGroup e.2 []).map (fun g => (digits e.1, Node.group g)))) with
  | none => none
  | some l => if (l.map (·.1)).Nodup then some (.group l) else none

inductive Kind
  | version | num | nat | txt | optNum | optTxt | optBool | ellipsoid | names | order | catalog | keywords
deriving DecidableEq

def name (s : String) : Str := s.toList

/-- What is written, in this order: telescopes.py 920-938 (after the version), then uvh5.py 1150-1234. -/
def plan : List (Str × Kind) :=
  [(name "version", .version),
   (name "telescope_frame", .txt), (name "ellipsoid", .ellipsoid),
   (name "latitude", .num), (name "longitude", .num), (name "altitude", .num),
   (name "telescope_name", .txt), (name "Nants_telescope", .nat), (name "antenna_numbers", .num),
   (name "antenna_positions", .num), (name "antenna_names", .names),
   (name "instrument", .optTxt), (name "x_orientation", .optTxt), (name "antenna_diameters", .optNum),
   (name "Nants_data", .nat), (name "Nbls", .nat), (name "Nblts", .nat), (name "Nfreqs", .nat),
   (name "Npols", .nat), (name "Nspws", .nat), (name "Ntimes", .nat),
   (name "uvw_array", .num), (name "vis_units", .txt), (name "channel_width", .num), (name "time_array", .num),
   (name "freq_array", .num), (name "integration_time", .num), (name "lst_array", .num),
   (name "polarization_array", .num), (name "spw_array", .num), (name "ant_1_array", .num), (name "ant_2_array", .num),
   (name "phase_center_id_array", .num), (name "Nphase", .nat), (name "phase_center_catalog", .catalog),
   (name "phase_center_app_ra", .num), (name "phase_center_app_dec", .num), (name "phase_center_frame_pa", .num),
   (name "dut1", .optNum), (name "earth_omega", .optNum), (name "gst0", .optNum), (name "rdate", .optTxt),
   (name "timesys", .optTxt), (name "blt_order", .order), (name "uvplane_reference_time", .optNum),
   (name "eq_coeffs", .optNum), (name "eq_coeffs_convention", .optTxt), (name "flex_spw_id_array", .optNum),
   (name "flex_spw_polarization_array", .optNum), (name "blts_are_rectangular", .optBool),
   (name "time_axis_faster_than_bls", .optBool), (name "pol_convention", .optTxt), (name "extra_keywords", .keywords),
   (name "history", .txt)]

/-- `", ".join`. -/
def joinOrder (l : List Str) : Str := List.intercalate [',', ' '] l

/-- One statement: `none` is an error, `some none` if nothing is written. -/
def node (o : Obj V) (n : Str) : Kind → Option (Option (Node V))
  | .version => some (some (.bytes ['1', '.', '2']))
  | .num => (o.num n).map (fun v => some (.num v))
  | .nat => (o.nat n).map (fun v => some (.nat v))
  | .txt => (o.txt n).bind (fun s => (enc s).map (fun b => some (.bytes b)))
  | .optNum => some ((o.num n).map .num)
  | .optTxt => match o.txt n with
    | none => some none
    | some s => (enc s).map (fun b => some (.bytes b))
  | .optBool => some ((o.bool n).map .bool)
  | .ellipsoid =>
    if o.txt (name "telescope_frame") = some (name "mcmf") then (o.txt n).map (fun s => some (.vlen s))
    else some none
  | .names => (seq (o.antNames.map enc)).map (fun l => some (.texts l))
  | .order => match o.bltOrder with
    | none => some none
    | some l => (enc (joinOrder l)).map (fun b => some (.bytes b))
  | .catalog => (writeCatalog o.catalog).map some
  | .keywords =>
    if o.keywords = [] then some none else (writeGroup o.keywords []).map (fun g => some (.group g))

/-- `_write_header`. -/
def write (o : Obj V) : Option (List (Str × Node V)) :=
  (seq (plan.map (fun e => (node o e.1 e.2).map (fun x => x.map (fun y => (e.1, y)))))).map (fun l => l.filterMap id)

/-! ## Reading -/

/-- Uvh5.py 100-114: these are decoded. -/
def stringAttrs : List Str :=
  [name "history", name "instrument", name "object_name", name "x_orientation", name "telescope_name", name "rdate",
   name "timesys", name "eq_coeffs_convention", name "phase_center_frame", name "version", name "pol_convention"]

/-- `bytes(x).decode("utf8")`. -/
def decode : Node V → Option Str
  | .bytes s => some s
  | .vlen s => some s
  | _ => none

/-- `__getattr__` for an attribute that should be a string, hdf5.py 538-555. -/
def getTxt (h : List (Str × Node V)) (n : Str) : Option Str :=
  if n ∈ stringAttrs then (lookup h n).bind decode else none

def getNum (h : List (Str × Node V)) (n : Str) : Option V :=
  match lookup h n with
  | some (.num v) => some v
  | _ => none

def getNat (h : List (Str × Node V)) (n : Str) : Option Nat :=
  match lookup h n with
  | some (.nat v) => some v
  | _ => none

def getBool (h : List (Str × Node V)) (n : Str) : Option Bool :=
  match lookup h n with
  | some (.bool v) => some v
  | _ => none

/-- Order of names in a group. -/
def nameLE (a b : Str) : Prop := a.map Char.toNat ≤ b.map Char.toNat

instance : DecidableRel nameLE := fun a b => inferInstanceAs (Decidable (a.map Char.toNat ≤ b.map Char.toNat))

/-- Members of a group as `h5py` lists them. -/
def members {α : Type} (l : List (Str × α)) : List (Str × α) := l.insertionSort (fun a b => nameLE a.1 b.1)

/-- A keyword, hdf5.py 689-699; a group has no `dtype`, and the error ends in another one. -/
def kwVal : Node V → Option (Val V)
  | .bytes s => some (.text s)
  | .vlen s => some (.text s)
  | .texts _ => some .junk
  | .empty => some .none
  | .num v => some (.num v)
  | .nat _ => some .junk
  | .bool _ => some .junk
  | .group _ => none

/-- An entry of the catalog, hdf5.py 715-723. -/
def pcVal : Node V → Option (Val V)
  | .bytes s => some (.text s)
  | .vlen s => some (.raw s)
  | .texts _ => some .junk
  | .empty => some .none
  | .num v => some (.num v)
  | .nat _ => some .junk
  | .bool _ => some .junk
  | .group _ => none

def readVals (f : Node V → Option (Val V)) (l : List (Str × Node V)) : Option (List (Str × Val V)) :=
  seq ((members l).map (fun e => (f e.2).map (fun v => (e.1, v))))

/-- `extra_keywords`, hdf5.py 681-700. -/
def readKeywords (h : List (Str × Node V)) : Option (List (Str × Val V)) :=
  match lookup h (name "extra_keywords") with
  | none => some []
  | some (.group l) => readVals kwVal l
  | some _ => none

/-- `int` of a string. -/
def ofDigits (s : Str) : Nat := Nat.ofDigitChars 10 s 0

/-- `phase_center_catalog`, hdf5.py 702-734 (new format; an empty catalog is a `StopIteration`). -/
def readCatalog (h : List (Str × Node V)) : Option (List (Nat × List (Str × Val V))) :=
  match lookup h (name "phase_center_catalog") with
  | some (.group l) =>
    if l = [] then none
    else seq ((members l).map (fun e => match e.2 with
      | .group g => (readVals pcVal g).map (fun vs => (ofDigits e.1, vs))
      | _ => none))
  | _ => none

/-- `text.split(", ")`. -/
def splitOrder : Str → List Str
  | [] => [[]]
  | [c] => [[c]]
  | c :: d :: rest =>
    if c = ',' ∧ d = ' ' then [] :: splitOrder rest
    else match splitOrder (d :: rest) with
      | [] => [[c]]
      | w :: ws => (c :: w) :: ws

/-- `vis_units`, uvh5.py 407-422. -/
def readUnits (h : List (Str × Node V)) : Option Str :=
  match lookup h (name "vis_units") with
  | none => some (name "uncalib")
  | some n => (decode n).map (fun s => if s = name "UNCALIB" then name "uncalib" else s)

/-- `telescope_frame`, hdf5.py 604-618. -/
def readFrame (h : List (Str × Node V)) : Option Str :=
  match lookup h (name "telescope_frame") with
  | none => some (name "itrs")
  | some n => (decode n).bind (fun s => if s = name "itrs" ∨ s = name "mcmf" then some s else none)

/-- `ellipsoid`, hdf5.py 620-630; the outer option is an error. -/
def readEllipsoid (h : List (Str × Node V)) (frame : Str) : Option (Option Str) :=
  if frame = name "mcmf" then
    match lookup h (name "ellipsoid") with
    | none => some (some (name "SPHERE"))
    | some n => (decode n).map some
  else some none

/-- `Nbls`, uvh5.py 181-204. -/
def readNbls (h : List (Str × Node V)) : Option Nat :=
  match getNat h (name "Nbls"), getNat h (name "Nblts"), getNat h (name "Ntimes") with
  | some b, some r, some t =>
    some (if getTxt h (name "telescope_name") = some (name "HERA") ∧ b = r ∧ r % t = 0 then r / t else b)
  | _, _, _ => none

/-- `time_axis_faster_than_bls`, uvh5.py 263-277, if it is in the file; `det` is what the arrays and the stated order say
if the file does not say whether the rows are a grid. -/
def readFaster (det : Bool × Option Bool) (h : List (Str × Node V)) : Option Bool :=
  match getBool h (name "time_axis_faster_than_bls") with
  | none => none
  | some t => match getBool h (name "blts_are_rectangular") with
    | some r => some (if r then t else false)
    | none => some (if det.1 then det.2.getD t else false)

def reqNums : List Str :=
  [name "latitude", name "longitude", name "altitude", name "antenna_numbers", name "antenna_positions",
   name "time_array", name "lst_array", name "ant_1_array", name "ant_2_array", name "integration_time",
   name "freq_array", name "spw_array", name "polarization_array", name "uvw_array", name "channel_width",
   name "phase_center_app_ra", name "phase_center_app_dec", name "phase_center_frame_pa", name "phase_center_id_array"]

def reqNats : List Str :=
  [name "Nants_telescope", name "Nfreqs", name "Npols", name "Nspws", name "Ntimes", name "Nblts", name "Nants_data",
   name "Nphase"]

def optNums : List Str :=
  [name "antenna_diameters", name "dut1", name "earth_omega", name "gst0", name "uvplane_reference_time",
   name "eq_coeffs", name "flex_spw_polarization_array"]

def optTxts : List Str :=
  [name "x_orientation", name "rdate", name "timesys", name "eq_coeffs_convention", name "pol_convention"]

/-- What is known about a telescope: antenna diameters and orientation. -/
structure Known (V : Type) where
  diam : Option V
  orient : Option Str

/-- The parameters that `_read_header_with_fast_meta` sets, uvh5.py 491-652. -/
def assemble (version : Str) (det : Bool × Option Bool) (blOf : V → V → Nat → V) (fill : V) (known : Known V)
    (h : List (Str × Node V)) (frame tel inst hist vu : Str) (nbls : Nat) (ell : Option Str) (names : List Str)
    (cat : List (Nat × List (Str × Val V))) (kws : List (Str × Val V)) (a1 a2 : V) (nt : Nat) : Obj V :=
  { num := fun n =>
      if n = name "baseline_array" then some (blOf a1 a2 nt)
      else if n = name "flex_spw_id_array" then some ((getNum h n).getD fill)
      else if n = name "antenna_diameters" then (getNum h n).or known.diam
      else if n ∈ reqNums ∨ n ∈ optNums then getNum h n else none
    nat := fun n => if n = name "Nbls" then some nbls else if n ∈ reqNats then getNat h n else none
    txt := fun n =>
      if n = name "telescope_frame" then some frame
      else if n = name "ellipsoid" then ell
      else if n = name "telescope_name" then some tel
      else if n = name "instrument" then some inst
      else if n = name "vis_units" then some vu
      else if n = name "history" then some (if History.hasVersion hist version then hist else hist ++ version)
      else if n = name "x_orientation" then (getTxt h n).or known.orient
      else if n ∈ optTxts then getTxt h n else none
    bool := fun n =>
      if n = name "blts_are_rectangular" then getBool h n
      else if n = name "time_axis_faster_than_bls" then readFaster det h else none
    antNames := names
    bltOrder := match lookup h (name "blt_order") with
      | some x => (decode x).map splitOrder
      | none => none
    catalog := cat
    keywords := kws }

/-- `_read_header_with_fast_meta`; `none` is an error. -/
def read (version : Str) (det : Bool × Option Bool) (blOf : V → V → Nat → V) (fill : V) (known : Str → Known V)
    (h : List (Str × Node V)) : Option (Obj V) :=
  if !(reqNums.all (fun n => (getNum h n).isSome)) then none
  else if !(reqNats.all (fun n => (getNat h n).isSome)) then none
  else
    match readFrame h, getTxt h (name "telescope_name"), getTxt h (name "instrument"),
      getTxt h (name "history"), readUnits h, readNbls h with
    | some frame, some tel, some inst, some hist, some vu, some nbls =>
      match readEllipsoid h frame, lookup h (name "antenna_names"), readCatalog h, readKeywords h,
        getNum h (name "ant_1_array"), getNum h (name "ant_2_array"), getNat h (name "Nants_telescope") with
      | some ell, some (.texts names), some cat, some kws, some a1, some a2, some nt =>
        some (assemble version det blOf fill (known tel) h frame tel inst hist vu nbls ell names cat kws a1 a2 nt)
      | _, _, _, _, _, _, _ => none
    | _, _, _, _, _, _ => none

end Verif.H5Head
