import Verif.PhaseCat.Model

/-!
What the phase-center catalog is meant to guarantee, stated without the catalog operations.
-/
namespace Verif.PhaseCat
open Verif.Pol (Str)

/-- The catalog and the rows fit together: no ID occurs twice, `Nphase` counts the entries, and every row points at
an entry. -/
structure Consistent (s : St) : Prop where
  distinct : (s.cat.map Prod.fst).Nodup
  count : s.nphase = s.cat.length
  rows : ∀ i ∈ s.ids, ∃ e, (i, e) ∈ s.cat

/-- Row `r` points at an entry with contents `e`. -/
def PointsAt (s : St) (r : Nat) (e : Entry) : Prop := ∃ i, s.ids[r]? = some i ∧ (i, e) ∈ s.cat

/-- Same physical phase center: everything equal except where the information came from (and the name, if names are
to be ignored). -/
def SameContents (ignoreName : Bool) (e e' : Entry) : Prop :=
  { e with info := e'.info, name := if ignoreName then e'.name else e.name } = e'

/-- Two numbers agree within tolerances. -/
def Near (rtol atol a b : Rat) : Prop := |a - b| ≤ atol + rtol * |b|

/-- Two coordinates agree: both missing, or both present, of the same shape, and element by element within
tolerance. -/
inductive NearVal (rtol atol : Rat) : Option Val → Option Val → Prop
  | missing : NearVal rtol atol none none
  | scalar {a b : Rat} : Near rtol atol a b → NearVal rtol atol (some (.scalar a)) (some (.scalar b))
  | vec {a b : List Rat} : List.Forall₂ (Near rtol atol) a b → NearVal rtol atol (some (.vec a)) (some (.vec b))

/-- Two entries describe the same phase center within the documented tolerances: one milliarcsecond for longitude
and latitude, relative 1e-5 or absolute 1e-8 for the rest, exact for type, frame and epoch. -/
structure Equivalent (c : Consts) (p q : Entry) : Prop where
  type : p.type = q.type
  lon : NearVal 0 c.radTol p.lon q.lon
  lat : NearVal 0 c.radTol p.lat q.lat
  frame : p.frame = q.frame
  epoch : p.epoch = q.epoch
  times : NearVal (1 / 100000) (1 / 100000000) p.times q.times
  pmRa : NearVal (1 / 100000) (1 / 100000000) p.pmRa q.pmRa
  pmDec : NearVal (1 / 100000) (1 / 100000000) p.pmDec q.pmDec
  dist : NearVal (1 / 100000) (1 / 100000000) p.dist q.dist
  vrad : NearVal (1 / 100000) (1 / 100000000) p.vrad q.vrad

/-- Equivalent, and of the same name unless names are ignored. -/
def Matches (c : Consts) (ignoreName : Bool) (p q : Entry) : Prop :=
  Equivalent c p q ∧ (ignoreName = false → p.name = q.name)

/-- A missing or scalar value. -/
def IsScalar (v : Option Val) : Prop := ∀ l, v ≠ some (.vec l)

/-- A missing value or an array of length `n`. -/
def HasLength (n : Nat) (v : Option Val) : Prop := ∀ x, v = some x → ∃ l, x = .vec l ∧ l.length = n

/-- The rules for catalog entries in the documentation of `phase_center_catalog`. -/
structure WellFormed (c : Consts) (e : Entry) : Prop where
  type : e.type = sidereal ∨ e.type = ephem ∨ e.type = unprojected ∨ e.type = driftscan
  lon : e.lon.isSome
  lat : e.lat.isSome
  frame : e.frame.isSome
  /-- proper motions come in pairs and only for sidereal sources -/
  pm : e.pmRa.isSome = e.pmDec.isSome ∧ (e.pmRa.isSome → e.type = sidereal)
  /-- times are given exactly for ephemerides, and every coordinate of an ephemeris has one value per time -/
  times : e.times.isSome ↔ e.type = ephem
  ephem : e.type = ephem → ∃ n, HasLength n e.times ∧ HasLength n e.lon ∧ HasLength n e.lat ∧ HasLength n e.dist ∧
    HasLength n e.vrad
  scalars : e.type ≠ Verif.PhaseCat.ephem → IsScalar e.lon ∧ IsScalar e.lat ∧ IsScalar e.pmRa ∧ IsScalar e.pmDec ∧
    IsScalar e.dist ∧ IsScalar e.vrad
  /-- drift scans and unprojected data are in horizontal coordinates -/
  horizontal : e.type = unprojected ∨ e.type = driftscan → e.frame = some altaz
  /-- unprojected data point at the zenith -/
  zenith : e.type = unprojected → e.lon = some (.scalar 0) ∧ e.lat = some (.scalar c.halfPi)

end Verif.PhaseCat
