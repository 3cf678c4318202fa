import Verif.AntPair.Spec
import Verif.Slices.Spec
import Mathlib.Algebra.Field.Defs

/-!
# Removal of equalization coefficients

Model of `UVData.remove_eq_coeffs`, `src/pyuvdata/uvdata/uvdata.py` 4174-4236.  Arrays are functions of positions,
numbers are exact.  `antpair2ind` and `get_antpairs` are those of `Verif.AntPair` (without cache, C15).
-/

namespace Verif.EqCoeff
open Verif.AntPair (antpair2ind getAntpairs)

/-- `eq_coeffs_convention`. -/
inductive Conv
  | multiply | divide | other
deriving DecidableEq

/-- The parts of an object that are used. -/
structure Obj (V : Type) where
  pairs : AntPair.Obj
  /-- `telescope.antenna_numbers` -/
  tel : List Nat
  /-- by antenna and channel -/
  coeffs : Option (Nat → Nat → V)
  conv : Option Conv
  data : Nat → Nat → Nat → V

inductive Err
  | noCoeffs | noConv | unknownConv | pairs | rows | noAnt
deriving DecidableEq

variable {V : Type} [Field V]

/-- The loop, uvdata.py 4213-4234; an error leaves what was done before.  The rows of a listed pair are never `None`. -/
def loop (c : Nat → Nat → V) (conv : Conv) : List (Nat × Nat) → Obj V → Obj V × Option Err
  | [], o => (o, none)
  | (a, b) :: ks, o =>
    match antpair2ind o.pairs a b true with
    | .error _ => (o, some .rows)
    | .ok r =>
      match r.picks o.pairs.nblts with
      | none => (o, some .rows)
      | some rows =>
        match o.tel.findIdx? (fun n => n == a), o.tel.findIdx? (fun n => n == b) with
        | some i, some j =>
          if conv = .multiply then
            loop c conv ks { o with data := fun r f p => if r ∈ rows then o.data r f p * (c i f * c j f) else o.data r f p }
          else
            loop c conv ks { o with data := fun r f p => if r ∈ rows then o.data r f p / (c i f * c j f) else o.data r f p }
        | _, _ => (o, some .noAnt)

/-- `remove_eq_coeffs`, uvdata.py 4174-4236. -/
def remove (o : Obj V) : Obj V × Option Err :=
  match o.coeffs with
  | none => (o, some .noCoeffs)
  | some c =>
    match o.conv with
    | none => (o, some .noConv)
    | some conv =>
      if conv ≠ .multiply ∧ conv ≠ .divide then (o, some .unknownConv)
      else
        match getAntpairs o.pairs with
        | .error _ => (o, some .pairs)
        | .ok ks => loop c conv ks o

end Verif.EqCoeff
