import Verif.H5Head.Model

/-!
# The header of calibration files in HDF5

Model of `CalH5._write_header` (`src/pyuvdata/uvcal/calh5.py` 695-808), `Telescope.write_hdf5_header`
(`src/pyuvdata/telescopes.py` 908-938), the attributes of `FastCalH5Meta` (`calh5.py` 59-95 with `HDF5Meta`,
`src/pyuvdata/utils/io/hdf5.py` 538-734), `Telescope.from_hdf5` (`telescopes.py` 844-906) and `CalH5._read_header` (`calh5.py` 138-305).

What a file is, how names and strings are stored, and how dictionaries are written and read is that of `Verif.H5Head`, with the
simplifications there. Sidereal times that are not in the file are a function of the times (`lst`); what is known about telescopes is a
parameter (`known`, see C149). Left out: the checks (C209 is about what is read, not about what is refused afterwards).
-/

namespace Verif.CalHead
open Verif.Pol (Str)
open Verif.H5Head

variable {V : Type}

structure Obj (V : Type) where
  /-- numbers and arrays by the name in the file -/
  num : Str → Option V
  nat : Str → Option Nat
  txt : Str → Option Str
  wide : Bool
  antNames : List Str
  catalog : Option (List (Nat × List (Str × Val V)))
  keywords : List (Str × Val V)

inductive Kind
  | version | num | nat | txt | optNum | optNat | optTxt | wide | ellipsoid | names | catalog | keywords
deriving DecidableEq

/-- What is written, in this order: telescopes.py 920-938 (after the version), then calh5.py 716-806. -/
def plan : List (Str × Kind) :=
  [(name "version", .version),
   (name "telescope_frame", .txt), (name "ellipsoid", .ellipsoid),
   (name "latitude", .num), (name "longitude", .num), (name "altitude", .num),
   (name "telescope_name", .txt), (name "Nants_telescope", .nat), (name "antenna_numbers", .num),
   (name "antenna_positions", .num), (name "antenna_names", .names),
   (name "instrument", .optTxt), (name "x_orientation", .optTxt), (name "antenna_diameters", .optNum),
   (name "Nants_data", .nat), (name "Nfreqs", .nat), (name "Njones", .nat), (name "Nspws", .nat), (name "Ntimes", .nat),
   (name "integration_time", .num), (name "jones_array", .num), (name "spw_array", .num), (name "ant_array", .num),
   (name "cal_type", .txt), (name "cal_style", .txt), (name "gain_convention", .txt), (name "wide_band", .wide),
   (name "channel_width", .optNum), (name "flex_spw_id_array", .optNum), (name "flex_jones_array", .optNum),
   (name "time_array", .optNum), (name "time_range", .optNum), (name "lst_array", .optNum), (name "lst_range", .optNum),
   (name "scan_number_array", .optNum), (name "ref_antenna_array", .optNum), (name "Nsources", .optNat),
   (name "baseline_range", .optNum), (name "diffuse_model", .optTxt), (name "freq_array", .optNum), (name "freq_range", .optNum),
   (name "gain_scale", .optTxt), (name "git_hash_cal", .optTxt), (name "git_origin_cal", .optTxt), (name "observer", .optTxt),
   (name "ref_antenna_name", .optTxt), (name "sky_catalog", .optTxt), (name "phase_center_id_array", .optNum),
   (name "Nphase", .optNat), (name "pol_convention", .optTxt), (name "phase_center_catalog", .catalog),
   (name "extra_keywords", .keywords), (name "history", .txt)]

/-- One statement: `none` is an error, `some none` if nothing is written. -/
def node (o : Obj V) (n : Str) : Kind → Option (Option (Node V))
  | .version => some (some (.bytes ['0', '.', '1']))
  | .num => (o.num n).map (fun v => some (.num v))
  | .nat => (o.nat n).map (fun v => some (.nat v))
  | .txt => (o.txt n).bind (fun s => (enc s).map (fun b => some (.bytes b)))
  | .optNum => some ((o.num n).map .num)
  | .optNat => some ((o.nat n).map .nat)
  | .optTxt => match o.txt n with
    | none => some none
    | some s => (enc s).map (fun b => some (.bytes b))
  | .wide => some (some (.bool o.wide))
  | .ellipsoid =>
    if o.txt (name "telescope_frame") = some (name "mcmf") then (o.txt n).map (fun s => some (.vlen s))
    else some none
  | .names => (seq (o.antNames.map enc)).map (fun l => some (.texts l))
  | .catalog => match o.catalog with
    | none => some none
    | some c => (writeCatalog c).map some
  | .keywords =>
    if o.keywords = [] then some none else (writeGroup o.keywords []).map (fun g => some (.group g))

/-- The statements one after the other. -/
def build {κ : Type} (f : Str → κ → Option (Option (Node V))) (p : List (Str × κ)) : Option (List (Str × Node V)) :=
  (seq (p.map (fun e => (f e.1 e.2).map (fun x => x.map (fun y => (e.1, y)))))).map (fun l => l.filterMap id)

/-- `_write_header`. -/
def write (o : Obj V) : Option (List (Str × Node V)) := build (node o) plan

/-! ## Reading -/

/-- Calh5.py 59-77: these are decoded. -/
def stringAttrs : List Str :=
  [name "history", name "x_orientation", name "telescope_name", name "cal_type", name "cal_style", name "gain_convention",
   name "diffuse_model", name "gain_scale", name "git_hash_cal", name "git_origin_cal", name "observer", name "ref_antenna_name",
   name "sky_catalog", name "instrument", name "version", name "pol_convention"]

/-- `__getattr__` for an attribute that should be a string, hdf5.py 538-555. -/
def getTxt (h : List (Str × Node V)) (n : Str) : Option Str :=
  if n ∈ stringAttrs then (lookup h n).bind decode else none

/-- Calh5.py 175-185 and 219-234, numbers and arrays. -/
def reqNums : List Str :=
  [name "latitude", name "longitude", name "altitude", name "antenna_numbers", name "antenna_positions",
   name "ant_array", name "integration_time", name "spw_array", name "jones_array"]

def reqNats : List Str :=
  [name "Nants_telescope", name "Nfreqs", name "Njones", name "Nspws", name "Ntimes", name "Nants_data"]

def reqTxts : List Str :=
  [name "telescope_name", name "history", name "cal_style", name "cal_type", name "gain_convention"]

/-- Calh5.py 189-190, 236-258, numbers and arrays that are set as they are. -/
def optNums : List Str :=
  [name "channel_width", name "flex_jones_array", name "baseline_range", name "freq_array", name "freq_range",
   name "phase_center_id_array", name "ref_antenna_array", name "scan_number_array"]

def optNats : List Str := [name "Nphase", name "Nsources"]

/-- Calh5.py 236-258 and telescopes.py 888, texts. -/
def optTxts : List Str :=
  [name "diffuse_model", name "gain_scale", name "git_hash_cal", name "git_origin_cal", name "observer", name "ref_antenna_name",
   name "sky_catalog", name "pol_convention", name "instrument"]

/-- Calh5.py 200-217: sidereal times are read if there are times. -/
def readLst (lst : V → V) (h : List (Str × Node V)) (times lsts : Str) : Option V :=
  match getNum h times with
  | none => none
  | some t => some ((getNum h lsts).getD (lst t))

/-- `phase_center_catalog`, hdf5.py 705-707. -/
def readCat (h : List (Str × Node V)) : Option (Option (List (Nat × List (Str × Val V)))) :=
  match lookup h (name "phase_center_catalog") with
  | none => some none
  | some _ => (readCatalog h).map some

/-- The parameters that are set. -/
def assemble (version : Str) (lst : V → V) (known : Known V) (h : List (Str × Node V)) (frame hist : Str) (ell : Option Str) (wide : Bool)
    (names : List Str) (cat : Option (List (Nat × List (Str × Val V)))) (kws : List (Str × Val V)) : Obj V :=
  { num := fun n =>
      if n = name "time_array" ∨ n = name "time_range" then getNum h n
      else if n = name "lst_array" then readLst lst h (name "time_array") n
      else if n = name "lst_range" then readLst lst h (name "time_range") n
      else if n = name "flex_spw_id_array" then (if wide then none else getNum h n)
      else if n = name "antenna_diameters" then (getNum h n).or known.diam
      else if n ∈ reqNums ∨ n ∈ optNums then getNum h n else none
    nat := fun n => if n ∈ reqNats ∨ n ∈ optNats then getNat h n else none
    txt := fun n =>
      if n = name "telescope_frame" then some frame
      else if n = name "ellipsoid" then ell
      else if n = name "history" then some (if History.hasVersion hist version then hist else hist ++ version)
      else if n = name "x_orientation" then (getTxt h n).or known.orient
      else if n ∈ reqTxts ∨ n ∈ optTxts then getTxt h n else none
    wide := wide
    antNames := names
    catalog := cat
    keywords := kws }

/-- `_read_header`; `none` is an error. Without times and time ranges `proc` has no value (288). -/
def read (version : Str) (lst : V → V) (known : Str → Known V) (h : List (Str × Node V)) : Option (Obj V) :=
  if !(reqNums.all (fun n => (getNum h n).isSome)) then none
  else if !(reqNats.all (fun n => (getNat h n).isSome)) then none
  else if !(reqTxts.all (fun n => (getTxt h n).isSome)) then none
  else if getNum h (name "time_array") = none ∧ getNum h (name "time_range") = none then none
  else
    match readFrame h, getTxt h (name "telescope_name"), getTxt h (name "history"), getBool h (name "wide_band") with
    | some frame, some tel, some hist, some wide =>
      match readEllipsoid h frame, lookup h (name "antenna_names"), readCat h, readKeywords h with
      | some ell, some (.texts names), some cat, some kws =>
        some (assemble version lst (known tel) h frame hist ell wide names cat kws)
      | _, _, _, _ => none
    | _, _, _, _ => none

end Verif.CalHead
