import Verif.Pol.Model
import Mathlib.Data.List.Basic
import Mathlib.Data.List.Nodup

/-!
# Parameters of known telescopes

Model of `Telescope.update_params_from_known_telescopes`, `src/pyuvdata/telescopes.py` 508-700.

Simplifications.  The position of the telescope with this name (`loc`, from the table or from astropy; `none` if neither
has it) and the entry of the table (`entry`, with the contents of the file of antenna positions) are parameters.  Warnings,
citations and the check at the end are left out.  If the number of antennas is not set, diameters are not filled in
(in the code `np.zeros(None)`).
-/

namespace Verif.KnownTel
open Verif.Pol (Str)

structure Tel (L P K : Type) where
  loc : Option L
  nants : Option Nat
  names : Option (List Str)
  nums : Option (List Nat)
  pos : Option (List P)
  diam : Option (List K)
  orient : Option Str

/-- The file of antenna positions. -/
structure Info (P : Type) where
  names : List Str
  nums : List Nat
  pos : List P

structure Entry (P K : Type) where
  ants : Option (Info P)
  diam : Option (List K)
  orient : Option Str

variable {L P K : Type}

/-- The antennas found by name, telescopes.py 613-619: positions in the object and in the file. -/
def byName (info : Info P) (names : Option (List Str)) : List (Nat × Nat) :=
  match names with
  | none => []
  | some l => l.zipIdx.filterMap (fun e => if e.1 ∈ info.names then some (e.2, info.names.idxOf e.1) else none)

/-- The antennas found by number in addition, telescopes.py 621-636. -/
def byNum (info : Info P) (nums : Option (List Nat)) (nants : Option Nat) (found : List (Nat × Nat)) : List (Nat × Nat) :=
  match nums with
  | none => found
  | some l =>
    if some found.length ≠ nants then
      l.zipIdx.foldl (fun acc e =>
        if e.2 ∉ acc.map (·.1) ∧ e.1 ∈ info.nums ∧ info.nums.idxOf e.1 ∉ acc.map (·.2) then
          acc ++ [(e.2, info.nums.idxOf e.1)] else acc) found
    else found

def takeAll {α : Type} (l : List α) (idx : List Nat) : List α := idx.filterMap (fun i => l[i]?)

/-- Telescopes.py 582-656. -/
def fillAnts (overwrite : Bool) (info : Info P) (t : Tel L P K) : Tel L P K :=
  if overwrite || t.names.isNone || t.nums.isNone || t.pos.isNone || t.nants.isNone then
    if overwrite || (t.names.isNone && t.nums.isNone && t.pos.isNone && t.nants.isNone) then
      { t with nants := some info.names.length, names := some info.names, nums := some info.nums, pos := some info.pos }
    else if t.names.isSome || t.nums.isSome then
      let found := byNum info t.nums t.nants (byName info t.names)
      if some found.length ≠ t.nants then t
      else
        let idx := found.map (·.2)
        { t with
          pos := t.pos.or (some (takeAll info.pos idx))
          names := t.names.or (some (takeAll info.names idx))
          nums := t.nums.or (some (takeAll info.nums idx)) }
    else t
  else t

/-- Telescopes.py 658-677. -/
def fillDiam (overwrite : Bool) (d : List K) (t : Tel L P K) : Tel L P K :=
  if overwrite || t.diam.isNone then
    match t.nants with
    | none => t
    | some n =>
      match d with
      | [x] => { t with diam := some (List.replicate n x) }
      | _ => if d.length = n then { t with diam := some d } else t
  else t

/-- Telescopes.py 679-683. -/
def fillOrient (overwrite : Bool) (x : Str) (t : Tel L P K) : Tel L P K :=
  if overwrite || t.orient.isNone then { t with orient := some x } else t

/-- Telescopes.py 565-576. -/
def fillLoc (overwrite : Bool) (loc : Option L) (t : Tel L P K) : Option (Tel L P K) :=
  if overwrite || t.loc.isNone then
    match loc with
    | none => none
    | some l => some { t with loc := some l }
  else some t

/-- A step that is done if the table has the item. -/
def ifKnown {α : Type} (x : Option α) (f : α → Tel L P K → Tel L P K) (t : Tel L P K) : Tel L P K :=
  match x with
  | none => t
  | some a => f a t

/-- `update_params_from_known_telescopes`; `none` if the position is not known. -/
def update (overwrite : Bool) (loc : Option L) (entry : Option (Entry P K)) (t : Tel L P K) : Option (Tel L P K) :=
  (fillLoc overwrite loc t).map (ifKnown entry (fun e t =>
    ifKnown e.orient (fillOrient overwrite) (ifKnown e.diam (fillDiam overwrite)
      (ifKnown e.ants (fillAnts overwrite) t))))

end Verif.KnownTel
