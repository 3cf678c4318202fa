import Mathlib.Algebra.Group.Defs
import Mathlib.Data.List.Basic
import Mathlib.Data.List.Sort
import Mathlib.Data.List.Lex
import Mathlib.Data.Char
import Verif.History.Model

/-!
# Sum and difference of the visibilities of two objects

Model of `UVData.sum_vis` and `diff_vis`, `src/pyuvdata/uvdata/uvdata.py` 6214-6465, and of `_combine_filenames`,
`src/pyuvdata/utils/tools.py` 21-56.

Simplifications.  Data are values of a group (an array as a whole).  Parameters other than data, history, extra keywords
and file names are values of a type `P` with a comparison `eq`.  Both objects are `UVData`.  The check of an object is a
parameter `ok`, apart from the one of the number of file names.  Warnings are left out.
-/

namespace Verif.SumVis
open Verif.Pol (Str)

/-- The parts of an object. -/
structure Obj (P E V : Type) where
  /-- the value of each parameter, with its name (without underscore) -/
  params : List (Str × P)
  data : V
  history : Str
  extra : List (Str × E)
  filename : Option (List Str)
  /-- `_filename.form`: the number of names -/
  form : Nat

inductive Err
  | checkThis | checkOther | unknownParam | index | differs | checkFinal
deriving DecidableEq

def nameHistory : Str := "history".toList
def nameData : Str := "data_array".toList
def nameExtra : Str := "extra_keywords".toList
def nameFile : Str := "filename".toList

variable {P E V : Type}

/-- Names of all parameters. -/
def Obj.names (o : Obj P E V) : List Str := o.params.map Prod.fst ++ [nameHistory, nameData, nameExtra, nameFile]

def get {A : Type} (l : List (Str × A)) (k : Str) : Option A := (l.find? (fun e => e.1 == k)).map Prod.snd

/-- A dictionary takes an item. -/
def put {A : Type} (l : List (Str × A)) (e : Str × A) : List (Str × A) :=
  if l.any (fun x => x.1 == e.1) then l.map (fun x => if x.1 == e.1 then e else x) else l ++ [e]

/-- `dict(items)`. -/
def dictOf {A : Type} (l : List (Str × A)) : List (Str × A) := l.foldl put []

/-- Whether file names are equal as parameters (compared after `strip`, which names do not need). -/
def sameFile (x y : Option (List Str)) : Bool := decide (x = y)

/-- `getattr(this, param) == getattr(other, param)`, uvdata.py 6328. -/
def same (eq : P → P → Bool) (x y : Obj P E V) (n : Str) : Bool :=
  if n = nameFile then sameFile x.filename y.filename
  else
    match get x.params n, get y.params n with
    | some p, some q => eq p q
    | _, _ => false

/-- One entry of `override_params`, uvdata.py 6310-6320; names are without underscore. -/
def override (names : List Str) : List Str → Except Err (List Str)
  | [] => .ok []
  | [] :: _ => .error .index
  | (c :: s) :: rest =>
    if (if c = '_' then s else c :: s) ∈ names then
      match override names rest with
      | .error e => .error e
      | .ok l => .ok ((if c = '_' then s else c :: s) :: l)
    else .error .unknownParam

/-- The names that are not compared, uvdata.py 6305-6320; `none` in the list is something that is not a string: then all
entries are ignored. -/
def ignored (names : List Str) (ov : List (Option Str)) : Except Err (List Str) :=
  match ov.mapM id with
  | none => .ok [nameHistory, nameData, nameExtra]
  | some l =>
    match override names l with
    | .error e => .error e
    | .ok m => .ok ([nameHistory, nameData, nameExtra] ++ m)

/-- `_combine_filenames`, tools.py 49-56. -/
def combineFiles (x y : Option (List Str)) : Option (List Str) :=
  match x, y with
  | some l, some m => some ((l ++ m).dedup.insertionSort (· ≤ ·))
  | some l, none => some l
  | none, some m => some m
  | none, none => none

/-- The check of the number of file names, uvbase.py 719; whatever else is checked is `ok`. -/
def check (ok : List (Str × P) → Bool) (o : Obj P E V) : Bool :=
  ok o.params && (match o.filename with
    | none => true
    | some l => l.length == o.form)

/-- The new history, uvdata.py 6352-6374. -/
def newHistory (difference verbose : Bool) (h k : Str) : Str :=
  let h' := h ++ (if difference then " Visibilities differenced using pyuvdata." else " Visibilities summed using pyuvdata.").toList
  if History.sameHistory h k then h'
  else if verbose then h' ++ " Second object history follows. ".toList ++ k
  else
    match History.addition h' k with
    | none => h'
    | some e => h' ++ " Unique part of second object history follows. ".toList ++ e

variable [AddGroup V]

/-- The object after lines 6337-6377. -/
def combined (difference verbose : Bool) (x y : Obj P E V) : Obj P E V :=
  { x with
    extra := dictOf (y.extra ++ x.extra)
    data := if difference then x.data - y.data else x.data + y.data
    history := newHistory difference verbose x.history y.history
    filename := combineFiles x.filename y.filename }

/-- `sum_vis` and `diff_vis` in place, uvdata.py 6281-6388: the object afterwards and the error. -/
def sumVis (eq : P → P → Bool) (ok : List (Str × P) → Bool) (difference verbose runCheck : Bool) (ov : List (Option Str))
    (x y : Obj P E V) : Obj P E V × Option Err :=
  if !check ok x then (x, some .checkThis)
  else if !check ok y then (x, some .checkOther)
  else
    match ignored x.names ov with
    | .error e => (x, some e)
    | .ok ign =>
      if (x.names.filter (fun n => !decide (n ∈ ign))).all (same eq x y) then
        if runCheck && !check ok (combined difference verbose x y) then
          (combined difference verbose x y, some .checkFinal)
        else (combined difference verbose x y, none)
      else (x, some .differs)

end Verif.SumVis
