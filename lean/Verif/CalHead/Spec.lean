import Verif.CalHead.Model
import Verif.H5Head.Spec

/-! What comes back from the header of a calibration file. -/

namespace Verif.CalHead
open Verif.Pol (Str)
open Verif.H5Head

variable {V : Type}

/-- Parameters of calibrations and their telescopes that are numbers or arrays of numbers. -/
def numNames : List Str :=
  ["ant_array", "spw_array", "freq_array", "channel_width", "freq_range", "jones_array", "time_array", "time_range", "lst_array", "lst_range",
   "integration_time", "flex_spw_id_array", "flex_jones_array", "ref_antenna_array", "baseline_range", "scan_number_array",
   "phase_center_id_array", "latitude", "longitude", "altitude", "antenna_numbers", "antenna_positions", "antenna_diameters"].map String.toList

def natNames : List Str :=
  ["Nfreqs", "Njones", "Ntimes", "Nspws", "Nants_data", "Nsources", "Nphase", "Nants_telescope"].map String.toList

def txtNames : List Str :=
  ["history", "gain_convention", "cal_type", "cal_style", "sky_catalog", "ref_antenna_name", "diffuse_model", "gain_scale", "git_origin_cal",
   "git_hash_cal", "observer", "pol_convention", "telescope_name", "telescope_frame", "ellipsoid", "instrument", "x_orientation"].map String.toList

/-- Parameters that must be set. -/
def required : List Str :=
  ["ant_array", "spw_array", "jones_array", "integration_time", "latitude", "longitude", "altitude", "antenna_numbers", "antenna_positions",
   "Nfreqs", "Njones", "Ntimes", "Nspws", "Nants_data", "Nants_telescope",
   "history", "gain_convention", "cal_type", "cal_style", "telescope_name", "telescope_frame"].map String.toList

/-- Objects that a file can keep: what is required is there, texts are plain, dictionaries have names without slashes, a catalog has entries, there
are times or ranges of time, and sidereal times exactly where there are times; wide-band objects have no channels with windows. -/
structure Good (o : Obj V) : Prop where
  num : ∀ n ∈ numNames, n ∈ required → (o.num n).isSome
  nat : ∀ n ∈ natNames, n ∈ required → (o.nat n).isSome
  txt : ∀ n ∈ txtNames, n ∈ required → (o.txt n).isSome
  plain : ∀ n ∈ txtNames, ∀ s, o.txt n = some s → Plain s
  names : ∀ s ∈ o.antNames, Plain s
  frame : o.txt (name "telescope_frame") = some (name "itrs") ∧ o.txt (name "ellipsoid") = none ∨
    o.txt (name "telescope_frame") = some (name "mcmf") ∧ (o.txt (name "ellipsoid")).isSome
  times : (o.num (name "time_array")).isSome ∨ (o.num (name "time_range")).isSome
  lst : (o.num (name "time_array")).isSome = (o.num (name "lst_array")).isSome
  lstRange : (o.num (name "time_range")).isSome = (o.num (name "lst_range")).isSome
  wide : o.wide = true → o.num (name "flex_spw_id_array") = none
  catalog : ∀ c, o.catalog = some c → c ≠ [] ∧ (c.map (·.1)).Nodup ∧ ∀ e ∈ c, Dict e.2
  keywords : Dict o.keywords

/-- Both have no catalog, or both have the same. -/
def SameCat : Option (List (Nat × List (Str × Val V))) → Option (List (Nat × List (Str × Val V))) → Prop
  | none, none => True
  | some c, some c' => SameCatalog c c'
  | _, _ => False

end Verif.CalHead
