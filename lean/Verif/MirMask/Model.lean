/-!
# Stored masks of MIR objects

Model of `MirParser.save_mask` and `MirParser.restore_mask` (mir_parser.py 1990–2052), and of what happens to stored masks on
reading another file into the same object (lines 2265–2279 and `_clear_auto`, lines 1945–1963).

* Tables are names with masks; dictionaries are lists of pairs with different names.
* What `_update_filter` does to masks is an arbitrary function.  (See `Verif.MirSel` for it.)
* Steps that raise leave the object as it is.
* The file dictionaries of objects with auto-correlations all have these (line 1960).
-/
set_option linter.unusedSectionVars false

namespace Verif.MirMask

abbrev Tables := List (String × List Bool)

structure Obj where
  /-- `_metadata_attrs`: names and masks -/
  tables : Tables
  /-- `_stored_masks` -/
  stored : List (String × Tables)

inductive Err where
  | exists_ | none_ | unknown | key
deriving DecidableEq

/-- `d[k] = v` -/
def put {α : Type} (d : List (String × α)) (k : String) (v : α) : List (String × α) :=
  d.filter (fun e => !decide (e.1 = k)) ++ [(k, v)]

/-- `save_mask` (lines 2007–2020). -/
def save (o : Obj) (name : String) (overwrite : Bool) : Except Err Obj :=
  if (o.stored.lookup name).isSome && !overwrite then .error .exists_
  else .ok { o with stored := put o.stored name o.tables }

/-- Lines 2048–2049. -/
def fill (saved : Tables) : Tables → Option Tables
  | [] => some []
  | (n, _) :: l =>
    match saved.lookup n with
    | none => none
    | some m =>
      match fill saved l with
      | none => none
      | some r => some ((n, m) :: r)

/-- `restore_mask` (lines 2038–2052); `update` is `_update_filter`. -/
def restore (update : Tables → Tables) (o : Obj) (name : String) (runUpdate : Bool) : Except Err Obj :=
  if o.stored = [] then .error .none_
  else
    match o.stored.lookup name with
    | none => .error .unknown
    | some saved =>
      match fill saved o.tables with
      | none => .error .key
      | some t => .ok { o with tables := if runUpdate then update t else t }

/-- `_clear_auto` on reading without auto-correlations (lines 1957–1963): if there is no table of these the KeyError comes before
the stored masks are cleared. -/
def clearAuto (o : Obj) : Obj :=
  if (o.tables.lookup "ac_data").isSome then { o with stored := [] } else o

/-- Reading a file with the tables `new` (lines 2265–2279). -/
def read (o : Obj) (new : Tables) (hasAuto : Bool) : Obj :=
  let o' := if hasAuto then o else clearAuto o
  { o' with tables := new }

/-- What can be done with an object. -/
inductive Op where
  | save (name : String) (overwrite : Bool)
  | restore (name : String) (runUpdate : Bool)
  /-- select, reset, or anything that changes masks only -/
  | change (masks : String → List Bool)

def step (update : Tables → Tables) (o : Obj) : Op → Obj
  | .save n w => match save o n w with | .ok o' => o' | .error _ => o
  | .restore n u => match restore update o n u with | .ok o' => o' | .error _ => o
  | .change g => { o with tables := o.tables.map fun e => (e.1, g e.1) }

def run (update : Tables → Tables) (o : Obj) (ops : List Op) : Obj := ops.foldl (step update) o

end Verif.MirMask
