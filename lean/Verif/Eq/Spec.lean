import Verif.Eq.Model

/-!
# What comparing two parameters or objects should mean

Only the types of values are taken from the model, no functions of it except the magnitude of a number.
-/

namespace Verif.Eq

open Verif.Pol (Str)

section
variable {α β : Type} [Field α] [LinearOrder α] [AddCommGroup β] [Sized α β]

/-- Two numbers agree within tolerances: both are NaN, both are the same infinity, or their difference is small. -/
inductive Near (rtol atol : α) : Num β → Num β → Prop
  | nan : Near rtol atol .nan .nan
  | inf (k : Nat) : Near rtol atol (.inf k) (.inf k)
  | fin (x y : β) : mag (x - y) ≤ atol + rtol * mag y → Near rtol atol (.fin x) (.fin y)

/-- Two arrays of numbers have the same length and agree element by element. -/
def AllNear (rtol atol : α) (d e : List (Num β)) : Prop :=
  d.length = e.length ∧ ∀ (i : Nat) (x y : Num β), d[i]? = some x → e[i]? = some y → Near rtol atol x y

/-- The number of elements is the one the shape says. -/
def Filled (shape : List Nat) (d : List (Num β)) : Prop := d.length = shape.prod

/-- A string without whitespace. -/
def letters (s : Str) : Str := s.filter (fun c => !c.isWhitespace)

/-- The only whitespace in a string are blanks and line breaks. -/
def BlanksOnly (s : Str) : Prop := ∀ c ∈ s, c.isWhitespace = true → c = ' ' ∨ c = '\n'

/-- Two keys that differ at most in upper and lower case. -/
def SameKey : Key → Key → Prop
  | .str s, .str t => s.map Char.toLower = t.map Char.toLower
  | .int i, .int j => i = j
  | _, _ => False

/-- Two values in dictionaries agree: no value is NaN; a list with one number counts as that number. -/
inductive LeafAgree (rtol atol : α) : Leaf β → Leaf β → Prop
  | none : LeafAgree rtol atol .none .none
  | num (x y : Num β) : x ≠ .nan → Near rtol atol x y → LeafAgree rtol atol (.num x) (.num y)
  | vec (a b : Bool) (sh : List Nat) (d e : List (Num β)) : (∀ x ∈ d, x ≠ .nan) → AllNear rtol atol d e →
      LeafAgree rtol atol (.vec a sh d) (.vec b sh e)
  | left (x y : Num β) (b : Bool) (sh : List Nat) : x ≠ .nan → Near rtol atol x y →
      LeafAgree rtol atol (.num x) (.vec b sh [y])
  | right (x y : Num β) (a : Bool) (sh : List Nat) : x ≠ .nan → Near rtol atol x y →
      LeafAgree rtol atol (.vec a sh [x]) (.num y)
  | str (s : Str) : LeafAgree rtol atol (.str s) (.str s)
  | strs (s : Str) (l : List Str) : LeafAgree rtol atol (.strs s l) (.strs s l)

/-- Something holds for all values in a dictionary, at any depth. -/
def Every (P : Leaf β → Prop) : (n : Nat) → Level β n → Prop
  | 0, v => P v
  | n + 1, v => match (show Leaf β ⊕ List (Key × Level β n) from v) with
    | .inl a => P a
    | .inr d => ∀ kv ∈ d, Every P n kv.2

/-- The keys of a dictionary are different even if case is ignored, at any depth. -/
def CaseDistinct : (n : Nat) → Level β n → Prop
  | 0, _ => True
  | n + 1, v => match (show Leaf β ⊕ List (Key × Level β n) from v) with
    | .inl _ => True
    | .inr d => d.Pairwise (fun a b => ¬ SameKey a.1 b.1) ∧ ∀ kv ∈ d, CaseDistinct n kv.2

/-- The keys of a dictionary are different, at any depth; Python sees to that. -/
def Distinct : (n : Nat) → Level β n → Prop
  | 0, _ => True
  | n + 1, v => match (show Leaf β ⊕ List (Key × Level β n) from v) with
    | .inl _ => True
    | .inr d => d.Pairwise (fun a b => a.1 ≠ b.1) ∧ ∀ kv ∈ d, Distinct n kv.2

/-- Two dictionaries agree: to every key of one there is the same key, up to case, in the other, with a value that
agrees. -/
def DictAgree {V : Type} (agree : V → V → Prop) (d e : List (Key × V)) : Prop :=
  (∀ a ∈ d, ∃ b ∈ e, SameKey a.1 b.1 ∧ agree a.2 b.2) ∧ ∀ b ∈ e, ∃ a ∈ d, SameKey a.1 b.1 ∧ agree a.2 b.2

def Agree (rtol atol : α) : (n : Nat) → Level β n → Level β n → Prop
  | 0, v, w => LeafAgree (β := β) rtol atol v w
  | n + 1, v, w =>
    match (show Leaf β ⊕ List (Key × Level β n) from v), (show Leaf β ⊕ List (Key × Level β n) from w) with
    | .inl a, .inl b => LeafAgree rtol atol a b
    | .inr d, .inr e => DictAgree (Agree rtol atol n) d e
    | _, _ => False

/-- A number in a dictionary that is not NaN. -/
def Leaf.NoNan : Leaf β → Prop
  | .num x => x ≠ .nan
  | .vec _ _ d => ∀ x ∈ d, x ≠ .nan
  | _ => True

def Leaf.NoText : Leaf β → Prop
  | .strs _ _ => False
  | _ => True

def Leaf.NoArray : Leaf β → Prop
  | .vec true _ _ => False
  | _ => True

variable {n : Nat}

/-- A value that can be compared with a copy of itself: arrays and lists are not empty, numbers in dictionaries are
not NaN, and no dictionary holds both a list of strings and an array. -/
def Ready : Val β n → Prop
  | .arr _ _ d => d ≠ []
  | .list l => l ≠ []
  | .dict d => d.Pairwise (fun a b => a.1 ≠ b.1) ∧ (∀ kv ∈ d, Distinct n kv.2) ∧ (∀ kv ∈ d, Every Leaf.NoNan n kv.2) ∧
      ((∀ kv ∈ d, Every Leaf.NoText n kv.2) ∨ ∀ kv ∈ d, Every Leaf.NoArray n kv.2)
  | _ => True

/-- Two parameters of the same kind: class, tolerances, expected type. -/
structure Alike (p q : Param α β n) : Prop where
  cls : p.cls = q.cls
  rtol : p.rtol = q.rtol
  atol : p.atol = q.atol
  strict : p.strict = q.strict
  expected : p.expected = q.expected
  ignoreNone : p.ignoreNone = q.ignoreNone

/-- Values of the same sort: arrays of numbers, numbers, strings, or strings in lists or arrays; or unset. -/
inductive SameSort : Val β n → Val β n → Prop
  | noneL (v : Val β n) : SameSort .none v
  | noneR (v : Val β n) : SameSort v .none
  | arr (k k' : Nat) (sh sh' : List Nat) (d d' : List (Num β)) : d ≠ [] → d' ≠ [] →
      SameSort (.arr k sh d) (.arr k' sh' d')
  | num (k : Nat) (x y : Num β) : SameSort (.num k x) (.num k y)
  | str (s t : Str) : SameSort (.str s) (.str t)
  | strs (a : Bool) (s t : Str) (l m : List Str) : SameSort (.strs a s l) (.strs a t m)

/-- Lengths of axes given by name. -/
def Dim (dims : Str → Option Nat) (f : Nat ⊕ Str) (k : Nat) : Prop :=
  match f with
  | .inl j => j = k
  | .inr p => dims p = some k

/-- The shape of a value: that of an array, the length of a list, nothing for a single value. -/
inductive HasShape : Val β n → List Nat → Prop
  | arr (k : Nat) (sh : List Nat) (d : List (Num β)) : HasShape (.arr k sh d) sh
  | list (l : List (Num β)) : HasShape (.list l) [l.length]
  | strs (a : Bool) (s : Str) (l : List Str) : HasShape (.strs a s l) [(s :: l).length]
  | num (k : Nat) (x : Num β) : HasShape (.num k x) []
  | str (s : Str) : HasShape (.str s) []
  | dict (d : Dict β n) : HasShape (.dict d) []
  | obj (c i : Nat) : HasShape (.obj c i) []

/-- The value and, in a list, all elements have one of the expected types; for an array that
has axes and elements the type of its elements. -/
inductive Typed (lk : Nat) (expected : List Kind) : Val β n → Prop
  | arr (k : Nat) (sh : List Nat) (d : List (Num β)) : Kind.num k ∈ expected → sh ≠ [] → d ≠ [] →
      Typed lk expected (.arr k sh d)
  | zero (k : Nat) (d : List (Num β)) : Kind.array ∈ expected → Typed lk expected (.arr k [] d)
  | empty : Typed lk expected (.list [])
  | list (l : List (Num β)) : Kind.num lk ∈ expected → Typed lk expected (.list l)
  | strs (a : Bool) (s : Str) (l : List Str) : Kind.str ∈ expected → Typed lk expected (.strs a s l)
  | num (k : Nat) (x : Num β) : Kind.num k ∈ expected → Typed lk expected (.num k x)
  | str (s : Str) : Kind.str ∈ expected → Typed lk expected (.str s)
  | dict (d : Dict β n) : Kind.dict ∈ expected → Typed lk expected (.dict d)
  | obj (c i : Nat) : Kind.obj (c + 1) ∈ expected → Typed lk expected (.obj c i)

end
end Verif.Eq
