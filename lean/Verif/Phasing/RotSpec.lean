import Verif.Phasing.Rot
import Mathlib.Tactic.FinCases
import Mathlib.Tactic.LinearCombination

/-!
# Rotations of arrays: what they should do, and that they do it
-/

namespace Verif.Phasing

open Verif.Coord (V3)

noncomputable section

/-- The right-handed rotation about a coordinate axis (0: first, 1: second, 2: third). -/
def rotAbout (axis : Fin 3) (a : ℝ) (v : V3) : V3 :=
  match axis with
  | 0 => ⟨v.x, Real.cos a * v.y - Real.sin a * v.z, Real.sin a * v.y + Real.cos a * v.z⟩
  | 1 => ⟨Real.cos a * v.x + Real.sin a * v.z, v.y, -Real.sin a * v.x + Real.cos a * v.z⟩
  | 2 => ⟨Real.cos a * v.x - Real.sin a * v.y, Real.sin a * v.x + Real.cos a * v.y, v.z⟩

/-- Entry `i` of an axis that numpy may have to repeat. -/
def bget {α : Type} (l : List α) (i : Nat) : Option α :=
  if l.length = 1 then l[0]? else l[i]?

/-- An axis that numpy can use where `n` entries are wanted. -/
def Fits {α : Type} (l : List α) (n : Nat) : Prop := l.length = 1 ∨ l.length = n

/-- Angle `i` of an argument: `None` is no rotation. -/
def Amount.at (a : Amount) (i : Nat) : Option ℝ :=
  match a with
  | .none => some 0
  | .scalar a => some a
  | .array as => bget as i

/-- The argument has one angle, or one for each of `n` rows. -/
def Amount.Fits (a : Amount) (n : Nat) : Prop :=
  match a with
  | .none => True
  | .scalar _ => True
  | .array as => Phasing.Fits as n

/-- An array with one row, or `n` rows, of `nVec` vectors each. -/
structure Arr.Ok (x : Arr) (n : Nat) : Prop where
  fits : Fits x.rows n
  vecs : ∀ r ∈ x.rows, r.length = x.nVec

end

/-! ## One vector -/

theorem rotAbout_zero (axis : Fin 3) (v : V3) : rotAbout axis 0 v = v := by
  fin_cases axis <;> simp [rotAbout]

theorem rotAbout_add (axis : Fin 3) (a b : ℝ) (v : V3) :
    rotAbout axis b (rotAbout axis a v) = rotAbout axis (a + b) v := by
  fin_cases axis <;> simp only [rotAbout, Real.sin_add, Real.cos_add] <;> ext <;> simp only <;> ring

theorem rotAbout_neg (axis : Fin 3) (a : ℝ) (v : V3) :
    rotAbout axis (-a) (rotAbout axis a v) = v := by
  rw [rotAbout_add, add_neg_cancel, rotAbout_zero]

theorem oneMatrix_mulVec (axis : Fin 3) (a : ℝ) (v : V3) :
    (oneMatrix axis a).mulVec v = rotAbout axis a v := by
  fin_cases axis <;> ext <;>
    simp [oneMatrix, M3.mulVec, M3.set, rotAbout] <;> ring

/-- Whatever the fresh memory held, the matrix of two axes is the product of the two rotations,
in the order in which they are named. -/
theorem twoMatrix_mulVec (junk : M3) (axis1 axis2 : Fin 3) (h : axis1 ≠ axis2) (a1 a2 : ℝ)
    (v : V3) : (twoMatrix junk axis1 axis2 a1 a2).mulVec v
      = rotAbout axis2 a2 (rotAbout axis1 a1 v) := by
  have hm : (-1 : Fin 3) = 2 := rfl
  have hm2 : (-2 : Fin 3) = 1 := rfl
  fin_cases axis1 <;> fin_cases axis2 <;> first
    | exact absurd rfl h
    | (ext <;> simp [twoMatrix, M3.mulVec, M3.set, rotAbout, pyIdx, Fin.ofNat, hm, hm2] <;> ring)

end Verif.Phasing
