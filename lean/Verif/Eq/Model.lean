import Mathlib.Algebra.Order.Ring.Abs
import Mathlib.Algebra.Order.Field.Basic
import Verif.Pol.Model

/-!
# Comparing parameters and objects

Model of `src/pyuvdata/parameter.py`: `_param_dict_equal` (lines 82-168), `UVParameter.__eq__` (314-605) and
`check_acceptability` (661-702), and of `src/pyuvdata/uvbase.py`: `UVBase.__eq__` (485-612) and `check` (649-831).

Simplifications.  Numbers live in any group with a magnitude, so integers, floats and complex numbers are covered
without rounding; there are NaN and infinite values besides.  Arrays of strings have one dimension.  Lists and
tuples are not told apart.  Dictionaries are association lists, nested at most `n` deep, for every `n`; a naive
comparison of dictionaries is taken not to see that two values are the same object, and to fail if a value is an
array.  Quantities, record arrays, locations and sky coordinates are not modelled, nor are the messages.
Whitespace is what `Char.isWhitespace` says.
-/

namespace Verif.Eq

open Verif.Pol (Str)

/-- Numbers with a magnitude: `np.abs` of integers, floats and complex numbers. -/
class Sized (α : outParam Type) [Field α] [LinearOrder α] (β : Type) [AddCommGroup β] where
  mag : β → α
  mag_zero : mag 0 = 0
  mag_neg : ∀ x, mag (-x) = mag x
  mag_add : ∀ x y, mag (x + y) ≤ mag x + mag y

export Sized (mag)

instance (priority := 50) sizedAbs {α : Type} [Field α] [LinearOrder α] [IsStrictOrderedRing α] : Sized α α where
  mag := fun x => |x|
  mag_zero := abs_zero
  mag_neg := abs_neg
  mag_add := abs_add_le

inductive Err
  | index | attr | type | value | name | unset | shape | kind | accept
deriving DecidableEq

/-- A floating point number: NaN, one of the infinite values, or a finite one. -/
inductive Num (β : Type)
  | nan
  | inf (k : Nat)
  | fin (x : β)
deriving DecidableEq

section
variable {α β : Type} [Field α] [LinearOrder α] [AddCommGroup β] [Sized α β] [DecidableEq β]

/-- `np.isclose` for one pair of numbers. -/
def close (rtol atol : α) (nanEq : Bool) : Num β → Num β → Bool
  | .nan, .nan => nanEq
  | .inf j, .inf k => decide (j = k)
  | .fin x, .fin y => decide (mag (x - y) ≤ atol + rtol * mag y)
  | _, _ => false

/-- `np.allclose` for flat arrays of the same length. -/
def allClose (rtol atol : α) (nanEq : Bool) (a b : List (Num β)) : Bool :=
  (a.zip b).all (fun p => close rtol atol nanEq p.1 p.2)

/-- What `np.array` makes of a number or a list of numbers. -/
inductive Flat (β : Type)
  | scalar (x : Num β)
  | vec (l : List (Num β))

/-- The pairs of elements that numpy compares after broadcasting. -/
def bcast : Flat β → Flat β → Except Err (List (Num β × Num β))
  | .scalar x, .scalar y => .ok [(x, y)]
  | .scalar x, .vec m => .ok (m.map (fun y => (x, y)))
  | .vec l, .scalar y => .ok (l.map (fun x => (x, y)))
  | .vec l, .vec m =>
    if l.length = m.length then .ok (l.zip m)
    else match l, m with
      | [x], m => .ok (m.map (fun y => (x, y)))
      | l, [y] => .ok (l.map (fun x => (x, y)))
      | _, _ => .error .value

/-- `np.allclose(np.array(a), np.array(b))`, parameter.py 544-550. -/
def flatEq (rtol atol : α) (a b : Flat β) : Except Err Bool :=
  match bcast a b with
  | .error e => .error e
  | .ok ps => .ok (ps.all (fun p => close rtol atol true p.1 p.2))

/-! ## Strings -/

/-- `str.strip` -/
def strip (s : Str) : Str := (((s.dropWhile Char.isWhitespace).reverse).dropWhile Char.isWhitespace).reverse

/-- `s.replace("\n", "").replace(" ", "")` -/
def squash (s : Str) : Str := (s.filter (fun c => c != '\n')).filter (fun c => c != ' ')

/-- Lines 594-597. -/
def strEq (s t : Str) : Bool := decide (strip s = strip t) || decide (squash s = squash t)

/-! ## Dictionaries -/

inductive Key
  | str (s : Str)
  | int (i : Int)
deriving DecidableEq

/-- `k.lower() if isinstance(k, str) else k` -/
def Key.lower : Key → Key
  | .str s => .str (s.map Char.toLower)
  | .int i => .int i

/-- A value in a dictionary that is not a dictionary. `vec` is a list or (`isArr`) an array of numbers with a shape,
`strs` is a list of strings. -/
inductive Leaf (β : Type)
  | none
  | num (x : Num β)
  | vec (isArr : Bool) (shape : List Nat) (data : List (Num β))
  | str (s : Str)
  | strs (s : Str) (l : List Str)

/-- Values of dictionaries that are nested at most `n` deep. -/
def Level (β : Type) : Nat → Type
  | 0 => Leaf β
  | n + 1 => Leaf β ⊕ List (Key × Level β n)

/-- The dictionary itself, with nesting of at most `n` in its values. -/
abbrev Dict (β : Type) (n : Nat) := List (Key × Level β n)

/-- Python's `==` on numbers. -/
def numPyEq : Num β → Num β → Bool
  | .inf j, .inf k => decide (j = k)
  | .fin x, .fin y => decide (x = y)
  | _, _ => false

/-- Python's `==` on values; `false` also where it raises or returns an array. -/
def leafPyEq : Leaf β → Leaf β → Bool
  | .none, .none => true
  | .num x, .num y => numPyEq x y
  | .vec false sh d, .vec false sh' d' =>
    decide (sh = sh') && decide (d.length = d'.length) && (d.zip d').all (fun p => numPyEq p.1 p.2)
  | .str s, .str t => decide (s = t)
  | .strs s l, .strs t m => decide (s = t) && decide (l = m)
  | _, _ => false

/-- `dict.get` -/
def look {V : Type} (d : List (Key × V)) (k : Key) : Option V := (d.find? (fun e => decide (e.1 = k))).map Prod.snd

/-- Python's `==` on dictionaries, given `==` on values. -/
def dictPyEq {V : Type} (veq : V → V → Bool) (d e : List (Key × V)) : Bool :=
  decide (d.length = e.length) && d.all (fun kv =>
    match look e kv.1 with
    | some w => veq kv.2 w
    | none => false)

def pyEq : (n : Nat) → Level β n → Level β n → Bool
  | 0, v, w => leafPyEq (β := β) v w
  | n + 1, v, w =>
    match (show Leaf β ⊕ List (Key × Level β n) from v), (show Leaf β ⊕ List (Key × Level β n) from w) with
    | .inl a, .inl b => leafPyEq a b
    | .inr d, .inr e => dictPyEq (pyEq n) d e
    | _, _ => false

/-- The keys of `{k.lower(): v}`, lines 105-110, in the order of their first appearance (repeated keys are harmless). -/
def lowKeys {V : Type} (d : List (Key × V)) : List Key := d.map (fun e => e.1.lower)

/-- The value of a key in `{k.lower(): v}`: the last one with that key wins. -/
def lookLow {V : Type} (d : List (Key × V)) (k : Key) : Option V :=
  ((d.filter (fun e => decide (e.1.lower = k))).getLast?).map Prod.snd

/-- A loop that returns at the first `False` and raises what its body raises. -/
def allM : List (Except Err Bool) → Except Err Bool
  | [] => .ok true
  | .ok true :: r => allM r
  | .ok false :: _ => .ok false
  | .error e :: _ => .error e

/-- Lines 82-168 given the comparison of values with `==` and with tolerances. -/
def dictEqWith {V : Type} (veq : V → V → Bool) (cmp : V → V → Except Err Bool) (d e : List (Key × V)) :
    Except Err Bool :=
  if dictPyEq veq d e then .ok true
  else if ¬ ((∀ k ∈ lowKeys d, k ∈ lowKeys e) ∧ ∀ k ∈ lowKeys e, k ∈ lowKeys d) then .ok false
  else allM ((lowKeys d).map (fun k =>
    match lookLow d k, lookLow e k with
    | some v, some w => cmp v w
    | _, _ => .ok true))

/-- `if array:` for an array that compares an array with a string or a dictionary: all elements are `False`. -/
def noneTrue (isArr : Bool) (d : List (Num β)) : Except Err Bool :=
  if isArr ∧ d.length ≠ 1 then .error .value else .ok false

/-- `if np.isclose(number, array)`: the truth value of an array with more or less than one element is an error. -/
def oneClose (rtol atol : α) (ps : List (Num β × Num β)) : Except Err Bool :=
  match ps with
  | [p] => .ok (close rtol atol false p.1 p.2)
  | _ => .error .value

/-- Lines 130-166 for values that are not dictionaries; the tolerances are numpy's defaults. -/
def leafEq (rtol atol : α) : Leaf β → Leaf β → Except Err Bool
  | .none, .none => .ok true
  | .none, _ => .ok false
  | _, .none => .ok false
  | .vec _ sh d, .vec _ sh' d' => if sh ≠ sh' then .ok false else .ok (allClose rtol atol false d d')
  | .vec _ sh _, .strs _ m => if sh ≠ [m.length + 1] then .ok false else .error .type
  | .strs _ l, .vec _ sh' _ => if [l.length + 1] ≠ sh' then .ok false else .error .type
  | .strs _ l, .strs _ m => if l.length ≠ m.length then .ok false else .error .type
  | .num x, .num y => .ok (close rtol atol false x y)
  | .num x, .vec _ _ d => oneClose rtol atol (d.map (fun y => (x, y)))
  | .vec _ _ d, .num y => oneClose rtol atol (d.map (fun x => (x, y)))
  | .str s, .str t => .ok (decide (s = t))
  | .vec a _ d, .str _ => noneTrue a d
  | .str _, .vec a _ d => noneTrue a d
  | .num _, .str _ => .ok false
  | .str _, .num _ => .ok false
  | .num _, .strs _ _ => .ok false
  | .strs _ _, .num _ => .ok false
  | .str _, .strs _ _ => .ok false
  | .strs _ _, .str _ => .ok false

/-- Lines 120-166 if only the other value is a dictionary. -/
def leafDict : Leaf β → Except Err Bool
  | .vec a _ d => noneTrue a d
  | _ => .ok false

/-- Lines 117-166 for one key. -/
def levelEq (rtol atol : α) : (n : Nat) → Level β n → Level β n → Except Err Bool
  | 0, v, w => leafEq (β := β) rtol atol v w
  | n + 1, v, w =>
    match (show Leaf β ⊕ List (Key × Level β n) from v), (show Leaf β ⊕ List (Key × Level β n) from w) with
    | .inl a, .inl b => leafEq rtol atol a b
    | .inl a, .inr _ => leafDict a
    | .inr _, .inl _ => .error .attr
    | .inr d, .inr e => dictEqWith (pyEq n) (levelEq rtol atol n) d e

/-- `_param_dict_equal`, lines 82-168. -/
def dictEq (rtol atol : α) (n : Nat) (d e : Dict β n) : Except Err Bool :=
  dictEqWith (pyEq n) (levelEq rtol atol n) d e

/-! ## Parameters -/

/-- What `isinstance` looks at. -/
inductive Kind
  | num (k : Nat)
  | str | list | array | dict
  | obj (i : Nat)
deriving DecidableEq

/-- The value of a parameter: an array of numbers of one type, a number, a list of numbers, a string, a list or
(`isArr`) array with at least one string, a dictionary, or an object of which only equality is known. -/
inductive Val (β : Type) (n : Nat)
  | none
  | arr (k : Nat) (shape : List Nat) (data : List (Num β))
  | num (k : Nat) (x : Num β)
  | list (l : List (Num β))
  | str (s : Str)
  | strs (isArr : Bool) (s : Str) (l : List Str)
  | dict (d : Dict β n)
  | obj (c i : Nat)

variable {n : Nat}

def Val.isNone : Val β n → Bool
  | .none => true
  | _ => false

/-- The type of the value. -/
def Val.kind : Val β n → Kind
  | .none => .obj 0
  | .arr _ _ _ => .array
  | .num k _ => .num k
  | .list _ => .list
  | .str _ => .str
  | .strs a _ _ => if a then .array else .list
  | .dict _ => .dict
  | .obj c _ => .obj (c + 1)

/-- The attributes of a `UVParameter` (parameter.py 270-308) that matter for comparisons. -/
structure Param (α β : Type) (n : Nat) where
  cls : Nat
  value : Val β n
  rtol : α
  atol : α
  strict : Bool
  expected : List Kind
  ignoreNone : Bool

/-- `s.strip()` for the elements of a value, line 585; raises if the value cannot be iterated over or an element
is not a string. -/
def stripAll : Val β n → Except Err (List Str)
  | .str t => .ok (t.map (fun c => strip [c]))
  | .strs _ s l => .ok ((s :: l).map strip)
  | .list m => if m = [] then .ok [] else .error .attr
  | .arr _ sh d => if sh = [] then .error .type else if d = [] then .ok [] else .error .attr
  | .dict d => if d.all (fun kv => match kv.1 with | .str _ => true | .int _ => false)
      then .ok (d.map (fun kv => match kv.1 with | .str s => strip s | .int _ => []))
      else .error .attr
  | _ => .error .type

/-- Lines 413-504: the value on the left is an array of numbers. -/
def arrEq (p q : Param α β n) (k : Nat) (sh : List Nat) (d : List (Num β)) : Except Err Bool :=
  if d = [] then .error .index
  else match q.value with
    | .arr k' sh' d' =>
      if sh ≠ sh' then .ok false
      else if p.strict = true ∧ q.strict = true ∧ p.expected ≠ q.expected then .ok false
      else if p.strict = true ∧ q.strict = false ∧ Kind.num k ∉ q.expected then .ok false
      else if p.strict = false ∧ q.strict = true ∧ Kind.num k' ∉ p.expected then .ok false
      else .ok (allClose p.rtol p.atol true d d')
    | .strs true _ m =>
      if sh ≠ [m.length + 1] then .ok false
      else if p.strict = true ∧ q.strict = true ∧ p.expected ≠ q.expected then .ok false
      else if p.strict = true ∧ q.strict = false ∧ Kind.num k ∉ q.expected then .ok false
      else if p.strict = false ∧ q.strict = true ∧ Kind.str ∉ p.expected then .ok false
      else .error .type
    | _ => .ok false

/-- Lines 535-580: neither a string nor strings on the left. -/
def plainEq (p : Param α β n) (v w : Val β n) : Except Err Bool :=
  match v, w with
  | _, .arr _ _ _ => .ok false
  | _, .strs true _ _ => .ok false
  | .num _ x, .num _ y => flatEq p.rtol p.atol (.scalar x) (.scalar y)
  | .num _ x, .list m => flatEq p.rtol p.atol (.scalar x) (.vec m)
  | .list l, .num _ y => flatEq p.rtol p.atol (.vec l) (.scalar y)
  | .list l, .list m => flatEq p.rtol p.atol (.vec l) (.vec m)
  | .dict d, .dict e => dictEq (1 / 100000 : α) (1 / 100000000) n d e
  | .dict _, _ => .error .attr
  | .obj _ i, .obj _ j => .ok (decide (i = j))
  | _, _ => .ok false

/-- Lines 582-603: a string or strings on the left. -/
def textEq (v w : Val β n) : Except Err Bool :=
  match v with
  | .str s => match w with
    | .str t => .ok (strEq s t)
    | _ => .error .attr
  | .strs _ s l => match stripAll w with
    | .error e => .error e
    | .ok m => .ok (decide ((s :: l).map strip = m))
  | _ => .ok true

/-- Lines 505-603: the value on the left is not an array of numbers. -/
def restEq (p q : Param α β n) : Except Err Bool :=
  if p.strict = true ∧ p.value.kind ∉ q.expected then .ok false
  else if q.strict = true ∧ q.value.kind ∉ p.expected then .ok false
  else match p.value with
    | .str s => textEq (.str s) q.value
    | .strs a s l => textEq (.strs a s l) q.value
    | .list l => if l = [] then .error .index else plainEq p (.list l) q.value
    | v => plainEq p v q.value

/-- `UVParameter.__eq__`, lines 314-605. -/
def paramEq (p q : Param α β n) : Except Err Bool :=
  if p.cls ≠ q.cls then .ok false
  else if p.ignoreNone = true ∧ (p.value.isNone = true ∨ q.value.isNone = true) then .ok true
  else if p.value.isNone = true then .ok q.value.isNone
  else if q.value.isNone = true then .ok false
  else match p.value with
    | .arr k sh d => arrEq p q k sh d
    | _ => restEq p q

/-! ## Objects -/

/-- An attribute of an object that holds a parameter. -/
structure Attr (S : Type) where
  name : Str
  required : Bool
  slot : S

/-- An object with parameters. -/
structure Object (S : Type) where
  cls : Nat
  attrs : List (Attr S)

/-- A parameter, or a parameter whose value is an object; objects nested at most `k` deep. -/
def Slot (α β : Type) (n : Nat) : Nat → Type
  | 0 => Param α β n
  | k + 1 => Param α β n ⊕ Object (Slot α β n k)

def Object.names {S : Type} (o : Object S) (required : Bool) : List Str :=
  (o.attrs.filter (fun a => a.required == required)).map Attr.name

/-- `getattr` for parameters -/
def Object.get {S : Type} (o : Object S) (name : Str) : Option S :=
  (o.attrs.find? (fun a => decide (a.name = name))).map Attr.slot

/-- uvbase.py 561-564: a name without a leading underscore gets one. -/
def underscored (s : Str) : Str :=
  match s with
  | '_' :: r => '_' :: r
  | s => '_' :: s

/-- A loop that goes through all elements, raises what its body raises and tells whether all were `True`. -/
def andM : List (Except Err Bool) → Except Err Bool
  | [] => .ok true
  | .error e :: _ => .error e
  | .ok b :: r => match andM r with
    | .error e => .error e
    | .ok c => .ok (b && c)

/-- The result of the first loop, unless one of the two loops raises. -/
def firstM (l m : Except Err Bool) : Except Err Bool :=
  match l, m with
  | .error e, _ => .error e
  | .ok _, .error e => .error e
  | .ok r, .ok _ => .ok r

/-- `UVBase.__eq__`, lines 485-612, given the comparison of parameters (whose first argument is `check_extra`, passed
on to objects inside).  `inst` is the relation between a class and its subclasses; `allowed` are the allowed failures. -/
def objEq {S : Type} (inst : Nat → Nat → Bool) (slotEq : Bool → S → S → Except Err Bool) (checkExtra : Bool)
    (allowed : List Str) (a b : Object S) : Except Err Bool :=
  if inst b.cls a.cls = false then .ok false
  else if ¬ ((∀ x ∈ a.names true, x ∈ b.names true) ∧ ∀ x ∈ b.names true, x ∈ a.names true) then .ok false
  else if checkExtra = true ∧ ¬ ((∀ x ∈ a.names false, x ∈ b.names false) ∧ ∀ x ∈ b.names false, x ∈ a.names false)
    then .ok false
  else
    firstM
      (andM ((((a.names true) ++ (if checkExtra then a.names false else [])).filter
        (fun x => decide (x ∉ allowed.map underscored))).map (fun x =>
          match a.get x, b.get x with
          | some s, some t => slotEq checkExtra s t
          | _, _ => .error .attr)))
      (andM ((allowed.map underscored).map (fun x =>
          match a.get x, b.get x with
          | none, _ => .ok true
          | some s, some t => slotEq true s t
          | some _, none => .error .attr)))

/-- `"filename"` -/
def filename : Str := ['f', 'i', 'l', 'e', 'n', 'a', 'm', 'e']

/-- The comparison of two parameters inside `UVBase.__eq__`, lines 569-593.  If only one of them holds an object, they
are taken to be different. -/
def slotEq (inst : Nat → Nat → Bool) : (k : Nat) → Bool → Slot α β n k → Slot α β n k → Except Err Bool
  | 0, _, s, t => paramEq (α := α) (β := β) (n := n) s t
  | k + 1, ce, s, t =>
    match (show Param α β n ⊕ Object (Slot α β n k) from s), (show Param α β n ⊕ Object (Slot α β n k) from t) with
    | .inl p, .inl q => paramEq p q
    | .inr a, .inr b => objEq inst (slotEq inst k) ce [filename] a b
    | _, _ => .ok false

/-- The list passed as `allowed_failures` after the call, lines 554-564. -/
def allowedAfter (allowed : List Str) : List Str := allowed.map underscored

/-! ## Checks -/

/-- The expected shape of a parameter: a string, or a list of fixed lengths and names of other parameters. -/
inductive Form
  | str
  | dims (l : List (Nat ⊕ Str))

/-- The attributes of a parameter that matter for checks. -/
structure Checked (α β : Type) (n : Nat) where
  attr : Str
  name : Str
  required : Bool
  value : Val β n
  form : Form
  expected : List Kind
  acceptNums : Option (List (Num β))
  acceptStrs : Option (List Str)
  acceptRange : Option (α × α)

/-- `expected_shape`, parameter.py 625-659; `dims` gives the values of integer parameters. -/
def expectedShape (dims : Str → Option Nat) : List (Nat ⊕ Str) → Except Err (List Nat)
  | [] => .ok []
  | .inl k :: r => match expectedShape dims r with
    | .error e => .error e
    | .ok s => .ok (k :: s)
  | .inr p :: r => match dims p with
    | none => .error .value
    | some k => match expectedShape dims r with
      | .error e => .error e
      | .ok s => .ok (k :: s)

/-- `np.shape` -/
def Val.shape : Val β n → List Nat
  | .arr _ sh _ => sh
  | .list l => [l.length]
  | .strs _ _ l => [l.length + 1]
  | _ => []

/-- The kinds of the values that are tested, lines 801-814 of uvbase.py: all elements of a list, the type of an array;
the list elements of the model are numbers of type `lk`. -/
def checkKinds (lk : Nat) (v : Val β n) : Except Err (List Kind) :=
  match v with
  | .arr _ [] _ => .ok [.array]
  | .arr k _ d => if d = [] then .error .index else .ok [.num k]
  | .list l => .ok (l.map (fun _ => .num lk))
  | .strs true _ _ => .ok [.str]
  | .strs false s l => .ok ((s :: l).map (fun _ => .str))
  | v => .ok [v.kind]

/-- The numbers of a value. -/
def Val.nums : Val β n → List (Num β)
  | .arr _ _ d => d
  | .num _ x => [x]
  | .list l => l
  | _ => []

/-- The strings of a value. -/
def Val.texts : Val β n → List Str
  | .str s => [s]
  | .strs _ s l => s :: l
  | _ => []

/-- The sum of the magnitudes, if all values are finite. -/
def magSum : List (Num β) → Option α
  | [] => some 0
  | .fin x :: r => (magSum r).map (fun s => mag x + s)
  | _ => none

/-- Lines 690-702: the mean of the magnitudes is compared with the range.  A mean that is not a number is outside, an
infinite one as well. -/
def inRange (lo hi : α) (l : List (Num β)) : Bool :=
  match magSum l with
  | some s => if l = [] then false else decide (lo ≤ s / (l.length : α)) && decide (s / (l.length : α) ≤ hi)
  | none => false

/-- `check_acceptability`, parameter.py 661-702. -/
def acceptable (c : Checked α β n) : Bool :=
  match c.acceptNums, c.acceptStrs with
  | some vs, _ => c.value.nums.all (fun x => decide (x ∈ vs))
  | none, some vs => c.value.texts.all (fun s => decide (s.map Char.toLower ∈ vs.map (List.map Char.toLower)))
  | none, none => match c.acceptRange with
    | some r => inRange r.1 r.2 c.value.nums
    | none => true

/-- uvbase.py 692-829 for one parameter. -/
def checkOne (dims : Str → Option Nat) (lk : Nat) (accept ignoreReq : Bool) (c : Checked α β n) : Except Err Unit :=
  if c.attr ≠ '_' :: c.name then .error .name
  else if c.value.isNone = true then
    if ignoreReq = true then .ok ()
    else if c.required = true then .error .unset
    else .ok ()
  else
    match c.form with
    | .str =>
      if c.value.kind ≠ .str then .error .kind
      else if accept = true ∧ acceptable c = false then .error .accept
      else .ok ()
    | .dims l => match expectedShape dims l with
      | .error e => .error e
      | .ok sh =>
        if c.value.shape ≠ sh then .error .shape
        else match checkKinds lk c.value with
          | .error e => .error e
          | .ok ks =>
            if ks.any (fun k => decide (k ∉ c.expected)) then .error .kind
            else if accept = true ∧ acceptable c = false then .error .accept
            else .ok ()

/-- `UVBase.check`, lines 682-831: required parameters first, then the others if asked for. -/
def check (dims : Str → Option Nat) (lk : Nat) (checkExtra accept ignoreReq : Bool) :
    List (Checked α β n) → Except Err Unit
  | [] => .ok ()
  | c :: r =>
    if c.required = true ∨ checkExtra = true then
      match checkOne dims lk accept ignoreReq c with
      | .error e => .error e
      | .ok () => check dims lk checkExtra accept ignoreReq r
    else check dims lk checkExtra accept ignoreReq r

end
end Verif.Eq
