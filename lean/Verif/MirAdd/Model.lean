import Mathlib.Data.List.Sort
import Mathlib.Data.List.Nodup

/-!
# Adding tables of MIR records

Model of `MirMetaData.__add__` (`src/pyuvdata/uvdata/mir_meta_data.py` 775-853) with `_add_check` (2007-2199).

* A table is a list of records with header key, values and mask (`good`: the record is used). Header keys are different; a dictionary from keys
  to positions is the list of its keys in the order of the dictionary, which is that of sorted keys (`_set_header_key_index_dict` 1667-1677 by
  `group_by` 1827-1843), and the record of a key is looked up.
* Dictionaries of two tables are equal (2086) if the tables have the same keys at the same positions.
* Types of tables (2072) and stored values (851) are left out.
-/

namespace Verif.MirAdd

inductive Err
  | mergeDiscard | mergeKeys | index | overlap | conflict
  deriving DecidableEq

structure Rec (A : Type) where
  key : Nat
  data : A
  good : Bool
  deriving DecidableEq

variable {A : Type}

/-- Keys of the dictionary of a table. -/
def keys (t : List (Rec A)) : List Nat := (t.map Rec.key).insertionSort (· ≤ ·)

def find (t : List (Rec A)) (k : Nat) : Option (Rec A) := t.find? (fun r => r.key == k)

def good (t : List (Rec A)) (k : Nat) : Bool := ((find t k).map Rec.good).getD false

/-- Lines 2091-2103: the mask of the first table is used for both. -/
def dicts (t u : List (Rec A)) (discard : Bool) : Except Err (Bool × List Nat × List Nat) :=
  if discard && !(t.all Rec.good && u.all Rec.good) then
    if u.length > t.length then .error .index
    else .ok (false, (keys t).filter (good t), (keys u).filter (fun k => (t[(u.map Rec.key).idxOf k]?.map Rec.good).getD false))
  else .ok (decide (t.map Rec.key = u.map Rec.key), keys t, keys u)

/-- What is known about a key that is in both tables. -/
structure Both where
  key : Nat
  good1 : Bool
  good2 : Bool
  equal : Bool

/-- Lines 2138-2157: with equal dictionaries, masks and values are taken in the order of records, keys in that of the dictionary. -/
def both [DecidableEq A] (t u : List (Rec A)) (same : Bool) (overlap : List Nat) : List Both :=
  if same then (overlap.zip (t.zip u)).map (fun p => ⟨p.1, p.2.1.good, p.2.2.good, decide (p.2.1.data = p.2.2.data)⟩)
  else overlap.map (fun k => ⟨k, good t k, good u k, decide ((find t k).map Rec.data = (find u k).map Rec.data)⟩)

/-- Lines 2132-2185: keys that are dropped from the first table (the others are dropped from the second one), if the conflict can be resolved. -/
def resolve (overwrite : Option Bool) (l : List Both) : Option (List Nat) :=
  if overwrite = some true then some (l.map Both.key)
  else if overwrite = none ∧ l.all (fun b => !(b.good1 && b.good2)) then some ((l.filter (fun b => !b.good1)).map Both.key)
  else if l.all Both.equal then some (l.map Both.key)
  else if overwrite ≠ none then none
  else if l.all (fun b => b.equal || !b.good1 || !b.good2) then some ((l.filter (fun b => b.equal || !b.good1)).map Both.key)
  else none

/-- Lines 2126-2131 and 842-843: records of a table that are kept, used if one of the two records of the key is. -/
def keep (t u : List (Rec A)) (overlap kept : List Nat) : List (Rec A) :=
  (t.filter (fun r => decide (r.key ∈ kept))).map (fun r => { r with good := r.good || (decide (r.key ∈ overlap) && good u r.key) })

/-- `_add_check` and lines 842-843. -/
def addTables [DecidableEq A] (t u : List (Rec A)) (merge overwrite : Option Bool) (discard : Bool) : Except Err (List (Rec A)) :=
  if merge = some true ∧ discard = true then .error .mergeDiscard
  else if merge = some true ∧ t.map Rec.key ≠ u.map Rec.key then .error .mergeKeys
  else match dicts t u discard with
  | .error e => .error e
  | .ok (same, d1, d2) =>
    let overlap := d1.filter (fun k => decide (k ∈ d2))
    if overlap ≠ [] ∧ merge = some false then .error .overlap
    else match resolve overwrite (both t u same overlap) with
    | none => .error .conflict
    | some dropped =>
      let d1' := d1.filter (fun k => decide (k ∉ dropped))
      let d2' := d2.filter (fun k => !(decide (k ∈ overlap) && decide (k ∉ dropped)))
      .ok (keep t u overlap d1' ++ keep u t overlap d2')

/-- `__add__`, 828-853: tables that are not loaded. -/
def add [DecidableEq A] (t u : Option (List (Rec A))) (merge overwrite : Option Bool) (discard : Bool) : Except Err (Option (List (Rec A))) :=
  match t, u with
  | t, none => .ok t
  | none, some u => .ok (some u)
  | some t, some u => match addTables t u merge overwrite discard with
    | .error e => .error e
    | .ok l => .ok (some l)

end Verif.MirAdd
