import Mathlib.Algebra.Group.Basic
import Verif.Np

/-!
# Antennas and the telescope in measurement sets

Model of `write_ms_antenna`, `read_ms_antenna`, `write_ms_observation`, `read_ms_observation` and `get_ms_telescope_location`
(`src/pyuvdata/utils/io/ms.py` 276-477, 1102-1195, 2102-2165) and of what `MS.read_ms` makes of them
(`src/pyuvdata/uvdata/ms.py` 951-988).

The table of antennas has a row for every number up to the largest. Positions are exact vectors. Names, numbers and positions of
antennas are in one list here; diameters are given for all antennas or for none. Files without `TELESCOPE_LOCATION` and the check of
the name of the frame are left out.
-/

namespace Verif.MsAnt
open Verif.Np

variable {K V : Type}

structure Ant (K V : Type) where
  num : Nat
  name : String
  /-- relative to the location of the telescope -/
  pos : V
  diam : K
deriving DecidableEq

structure Tel (K V : Type) where
  ants : List (Ant K V)
  /-- Diameters are set. -/
  diams : Bool
  loc : V
  moon : Bool
  ellipsoid : Option String
  name : String
  instrument : Option String
  observer : Option String

structure TabRow (K V : Type) where
  name : String
  station : String
  pos : V
  diam : K

structure File (K V : Type) where
  rows : List (TabRow K V)
  moon : Bool
  ellipsoid : Option String
  loc : V
  name : String
  observer : String

section
variable [LinearOrder K] [Zero K] [AddGroup V] [DecidableEq V]

/-- The antenna that is written to a row: later ones replace earlier ones. -/
def antAt (l : List (Ant K V)) (i : Nat) : Option (Ant K V) := (l.filter (fun a => decide (a.num = i))).getLast?

/-- 458-468. -/
def diamAt (t : Tel K V) (i : Nat) : K :=
  if t.diams then match unique (t.ants.map (fun a => a.diam)) with
    | [d] => d
    | _ => ((antAt t.ants i).map (fun a => a.diam)).getD 0
  else 0

def rowAt (t : Tel K V) (i : Nat) : TabRow K V :=
  match antAt t.ants i with
  | some a => ⟨a.name, a.name, a.pos + t.loc, diamAt t i⟩
  | none => ⟨"", "", 0, diamAt t i⟩

/-- `write_ms_antenna` and `write_ms_observation`; `none` is the error of `np.max` without antennas. -/
def write (t : Tel K V) : Option (File K V) :=
  match (t.ants.map (fun a => a.num)).max? with
  | none => none
  | some n => some ⟨(List.range (n + 1)).map (rowAt t), t.moon, if t.moon then t.ellipsoid else none, t.loc, t.name,
      t.observer.getD t.name⟩

/-- Rows with a position (334-341). -/
def good (f : File K V) : List (Nat × TabRow K V) := (f.rows.zipIdx.filter (fun x => decide (x.1.pos ≠ 0))).map (fun x => (x.2, x.1))

/-- `imp`: the history has "importuvfits" (975-980). -/
def useNames (imp : Bool) (f : File K V) : Bool :=
  !imp && decide ((good f).map (fun x => x.2.name)).Nodup && !decide ("" ∈ (good f).map (fun x => x.2.name))

def read (imp : Bool) (f : File K V) : Tel K V where
  ants := (good f).map (fun x => ⟨x.1, if useNames imp f then x.2.name else x.2.station, x.2.pos - f.loc, x.2.diam⟩)
  diams := (good f).any (fun x => decide (0 < x.2.diam))
  loc := f.loc
  moon := f.moon
  ellipsoid := if f.moon then some (f.ellipsoid.getD "SPHERE") else none
  name := f.name
  instrument := some f.name
  observer := some f.observer

end

end Verif.MsAnt
