import Verif.FreqSort.Model
import Verif.Pol.Model

/-!
# Antennas in the order of another object

Model of `UVFlag.sort_ant_metadata_like` (`src/pyuvdata/uvflag/uvflag.py` 1338-1385). `np.argsort` is any sorting function.
`Nants` is the number of antenna numbers of the telescope. Numbers, names and positions are lists; positions are any type.
-/

namespace Verif.AntLike
open Verif.Np Verif.FreqSort
open Verif.Pol (Str)

structure Tel (P : Type) where
  nums : Option (List Int)
  names : Option (List Str)
  pos : Option (List P)

inductive Err
  | broadcast | index
deriving DecidableEq

/-- `np.isclose`, with the tolerances of numpy: `|a - b| ≤ 1e-8 + 1e-5 |b|`. -/
def close (a b : Int) : Bool := decide (10 ^ 8 * |a - b| ≤ 1 + 10 ^ 3 * |b|)

/-- `np.allclose`: arrays of different lengths can be compared only if one has length one. -/
def allclose (a b : List Int) : Except Err Bool :=
  if a.length = b.length then .ok ((a.zip b).all (fun p => close p.1 p.2))
  else match a, b with
    | [x], b => .ok (b.all (fun y => close x y))
    | a, [y] => .ok (a.all (fun x => close x y))
    | _, _ => .error .broadcast

/-- `np.intersect1d(a, b).size`. -/
def common (a b : List Int) : Nat := (a.dedup.filter (fun x => decide (x ∈ b))).length

/-- `inv[order] = np.arange(n)`. -/
def inverse (order : List Nat) : List Nat := (List.range order.length).map (fun j => order.idxOf j)

/-- An array that may be missing, in another order. -/
def takeOpt {A : Type} (x : Option (List A)) (order : List Nat) : Except Err (Option (List A)) :=
  match x with
  | none => .ok none
  | some l => match take? l order with
    | none => .error .index
    | some l' => .ok (some l')

/-- `sort_ant_metadata_like`. -/
def sortLike {P : Type} (srt : Argsort Int) (t u : Tel P) : Except Err (Tel P) :=
  match t.nums, u.nums with
  | some a, some b =>
    if common a b = a.length then
      match allclose a b with
      | .error e => .error e
      | .ok true => .ok t
      | .ok false =>
        match take? (srt.run a) (inverse (srt.run b)) with
        | none => .error .index
        | some order => do
          let nums ← takeOpt t.nums order
          let names ← takeOpt t.names order
          let pos ← takeOpt t.pos order
          pure ⟨nums, names, pos⟩
    else .ok t
  | _, _ => .ok t

end Verif.AntLike
