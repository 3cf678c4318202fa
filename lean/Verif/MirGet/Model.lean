import Mathlib.Data.List.Sort
import Mathlib.Data.List.Nodup

/-!
# Values of MIR tables

Model of `MirMetaData._index_query`, `get_value`, `set_value` and `reset_values` (`src/pyuvdata/uvdata/mir_meta_data.py` 1044-1183, 1185-1275,
1295-1388, 1878-1911).

* A table has `size` records; its fields `fields` are lists of that length (`_data`), `mask` says which records are used, `keys` are header keys.
* A condition is a field and what its value should meet (the comparisons of `where`, 991-1033, are those of `Verif.MirSel`); fields with several values
  for each record are left out.
* Positions count from zero (negative ones of numpy are left out). Several fields at once are values of one after the other (1263-1268).
* Left out: warnings (1358-1379), the form of arguments (1147-1162).
-/

namespace Verif.MirGet

inductive Err
  | many | useMask | noField | noKey | index | shape | notStored
  deriving DecidableEq

structure Tab (F A : Type) where
  size : Nat
  fields : List F
  data : F → List A
  mask : List Bool
  keys : List Nat
  stored : F → Option (List A)

structure Query (F A : Type) where
  useMask : Option Bool := none
  conds : Option (List (F × (A → Bool))) := none
  andArgs : Bool := true
  header : Option (List Nat) := none
  index : Option (List Nat) := none

inductive Sel
  | all | mask (m : List Bool) | at (l : List Nat)
  deriving DecidableEq

variable {F A : Type} [DecidableEq F]

/-- `where`, 1024. -/
def Tab.cond (t : Tab F A) (c : F × (A → Bool)) : List Bool := (t.data c.1).map c.2

/-- Lines 1139-1183: conditions on fields that the table does not have are passed over. -/
def Tab.conds (t : Tab F A) (use andArgs : Bool) (l : List (F × (A → Bool))) : Except Err Sel :=
  let own := l.filter (fun c => decide (c.1 ∈ t.fields))
  let start := if use then t.mask else List.replicate t.size andArgs
  if own.isEmpty then .error .noField
  else .ok (.mask (own.foldl (fun m c => List.zipWith (fun a b => if andArgs then a && b else a || b) m (t.cond c)) start))

/-- `_index_query`. -/
def Tab.query (t : Tab F A) (q : Query F A) : Except Err Sel :=
  match q.index, q.header, q.conds with
  | none, none, none => .ok (if q.useMask.getD true then .mask t.mask else .all)
  | none, none, some l => t.conds (q.useMask.getD true) q.andArgs l
  | some i, none, none => if q.useMask = some true then .error .useMask else .ok (.at i)
  | none, some k, none =>
    if q.useMask = some true then .error .useMask
    else if k.all (fun x => decide (x ∈ t.keys)) then .ok (.at (k.map t.keys.idxOf)) else .error .noKey
  | _, _, _ => .error .many

/-- Positions of a selection. -/
def Sel.pos (n : Nat) : Sel → List Nat
  | .all => List.range n
  | .mask m => (List.range n).filter (fun i => m.getD i false)
  | .at l => l

/-- `get_value`. -/
def Tab.get (t : Tab F A) (f : F) (q : Query F A) : Except Err (List A) :=
  match t.query q with
  | .error e => .error e
  | .ok s =>
    if f ∉ t.fields then .error .noField
    else if (s.pos t.size).all (fun i => decide (i < t.size)) then .ok ((s.pos t.size).filterMap (fun i => (t.data f)[i]?)) else .error .index

/-- A number, or an array with a value for each position. -/
inductive Value (A : Type)
  | one (v : A) | array (l : List A)

def Value.list (n : Nat) : Value A → Option (List A)
  | .one v => some (List.replicate n v)
  | .array l => if l.length = n then some l else none

/-- Values are put at positions. -/
def put (d : List A) (p : List Nat) (v : List A) : List A := (p.zip v).foldl (fun d x => d.set x.1 x.2) d

/-- `set_value`: what is left in the table, even if there is an error, and the error. -/
def Tab.set (t : Tab F A) (f : F) (v : Value A) (q : Query F A) : Tab F A × Option Err :=
  match t.query q with
  | .error e => (t, some e)
  | .ok s =>
    if f ∉ t.fields then (t, some .noField)
    else
      let t' := { t with stored := fun g => if g = f then (match t.stored f with | some d => some d | none => some (t.data f)) else t.stored g }
      if (s.pos t.size).all (fun i => decide (i < t.size)) then
        match v.list (s.pos t.size).length with
        | some l => ({ t' with data := fun g => if g = f then put (t.data f) (s.pos t.size) l else t.data g }, none)
        | none => (t', some .shape)
      else (t', some .index)

/-- `reset_values`. -/
def Tab.reset (t : Tab F A) (names : Option (List F)) : Except Err (Tab F A) :=
  match names with
  | none => .ok { t with data := fun g => (t.stored g).getD (t.data g), stored := fun _ => none }
  | some l =>
    if l.all (fun f => (t.stored f).isSome) then
      .ok { t with data := fun g => if g ∈ l then (t.stored g).getD (t.data g) else t.data g, stored := fun g => if g ∈ l then none else t.stored g }
    else .error .notStored

end Verif.MirGet
