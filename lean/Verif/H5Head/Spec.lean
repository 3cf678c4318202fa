import Verif.H5Head.Model

/-! What comes back from a file. -/

namespace Verif.H5Head
open Verif.Pol (Str)

variable {V : Type}

/-- ASCII without zeros. -/
def Plain (s : Str) : Prop := ∀ c ∈ s, 0 < c.toNat ∧ c.toNat < 128

/-- A name without slashes. -/
def Simple (k : Str) : Prop := k ≠ [] ∧ k ≠ ['.'] ∧ '/' ∉ k

/-- A string, a number or `None`. -/
inductive Single : Val V → Prop
  | text {s : Str} (h : Plain s) : Single (.text s)
  | none : Single .none
  | num (v : V) : Single (.num v)

/-- A dictionary with names without slashes and single values. -/
def Dict (l : List (Str × Val V)) : Prop := (l.map (·.1)).Nodup ∧ ∀ e ∈ l, Simple e.1 ∧ Single e.2

/-- Parameters that are numbers or arrays of numbers. -/
def numNames : List Str :=
  ["uvw_array", "channel_width", "time_array", "freq_array", "integration_time", "lst_array", "polarization_array",
   "spw_array", "ant_1_array", "ant_2_array", "baseline_array", "phase_center_id_array", "phase_center_app_ra",
   "phase_center_app_dec", "phase_center_frame_pa", "dut1", "earth_omega", "gst0", "uvplane_reference_time", "eq_coeffs",
   "flex_spw_id_array", "flex_spw_polarization_array", "latitude", "longitude", "altitude", "antenna_numbers",
   "antenna_positions", "antenna_diameters"].map String.toList

def natNames : List Str :=
  ["Nants_data", "Nbls", "Nblts", "Nfreqs", "Npols", "Nspws", "Ntimes", "Nphase", "Nants_telescope"].map String.toList

def txtNames : List Str :=
  ["vis_units", "history", "rdate", "timesys", "eq_coeffs_convention", "pol_convention", "telescope_name",
   "telescope_frame", "ellipsoid", "instrument", "x_orientation"].map String.toList

def boolNames : List Str := ["blts_are_rectangular", "time_axis_faster_than_bls"].map String.toList

/-- Parameters that need not be set. -/
def optional : List Str :=
  ["dut1", "earth_omega", "gst0", "uvplane_reference_time", "eq_coeffs", "flex_spw_polarization_array",
   "antenna_diameters", "rdate", "timesys", "eq_coeffs_convention", "pol_convention", "x_orientation",
   "ellipsoid"].map String.toList

/-- Objects that a file can keep: what is required is there, texts are plain, dictionaries have names without slashes;
and the statements about the rows are right. -/
structure Good (blOf : V → V → Nat → V) (o : Obj V) : Prop where
  num : ∀ n ∈ numNames, n ∉ optional → (o.num n).isSome
  nat : ∀ n ∈ natNames, (o.nat n).isSome
  txt : ∀ n ∈ txtNames, n ∉ optional → (o.txt n).isSome
  plain : ∀ n ∈ txtNames, ∀ s, o.txt n = some s → Plain s
  names : ∀ s ∈ o.antNames, Plain s
  frame : o.txt (name "telescope_frame") = some (name "itrs") ∧ o.txt (name "ellipsoid") = none ∨
    o.txt (name "telescope_frame") = some (name "mcmf") ∧ (o.txt (name "ellipsoid")).isSome
  units : o.txt (name "vis_units") ≠ some (name "UNCALIB")
  order : ∀ l, o.bltOrder = some l → l ≠ [] ∧ ∀ w ∈ l, Plain w ∧ ',' ∉ w
  catalog : o.catalog ≠ [] ∧ (o.catalog.map (·.1)).Nodup ∧ ∀ e ∈ o.catalog, Dict e.2
  keywords : Dict o.keywords
  bl : ∀ a b n, o.num (name "ant_1_array") = some a → o.num (name "ant_2_array") = some b →
    o.nat (name "Nants_telescope") = some n → o.num (name "baseline_array") = some (blOf a b n)
  nbls : ∀ b r t, o.nat (name "Nbls") = some b → o.nat (name "Nblts") = some r → o.nat (name "Ntimes") = some t →
    o.txt (name "telescope_name") = some (name "HERA") → b = r → r % t = 0 → t = 1
  faster : ∀ t, o.bool (name "time_axis_faster_than_bls") = some t →
    ∃ r, o.bool (name "blts_are_rectangular") = some r ∧ (t = true → r = true)

/-- Catalogs are equal as dictionaries of dictionaries. -/
def SameCatalog (c c' : List (Nat × List (Str × Val V))) : Prop :=
  ∃ m, m.Perm c ∧ List.Forall₂ (fun e f => e.1 = f.1 ∧ e.2.Perm f.2) c' m

end Verif.H5Head
