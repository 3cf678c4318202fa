import Verif.Coord.Model
import Mathlib.Data.Fin.Basic

/-!
# Rotations of arrays of vectors

Model of `_rotate_matmul_wrapper`, `_rotate_one_axis` and `_rotate_two_axis`
(`src/pyuvdata/utils/phasing.py` lines 187-459).  Numbers are real numbers.
-/

namespace Verif.Phasing

open Verif.Coord (V3)

noncomputable section

/-- A 3×3 matrix. -/
abbrev M3 := Fin 3 → Fin 3 → ℝ

/-- `rot_matrix[i, j] = a`. -/
def M3.set (m : M3) (i j : Fin 3) (a : ℝ) : M3 :=
  fun i' j' => if i' = i ∧ j' = j then a else m i' j'

/-- One column of `np.matmul`. -/
def M3.mulVec (m : M3) (v : V3) : V3 :=
  ⟨m 0 0 * v.x + m 0 1 * v.y + m 0 2 * v.z,
   m 1 0 * v.x + m 1 1 * v.y + m 1 2 * v.z,
   m 2 0 * v.x + m 2 1 * v.y + m 2 2 * v.z⟩

/-- A rotation angle argument: `None`, a float, or an array. -/
inductive Amount
  | none
  | scalar (a : ℝ)
  | array (as : List ℝ)

/-- `(rot_amount is None) or np.all(rot_amount == 0.0)` (lines 263, 358-359). -/
def Amount.NoRot : Amount → Prop
  | .none => True
  | .scalar a => a = 0
  | .array as => ∀ a ∈ as, a = 0

/-- The angles of the matrices, one each (line 272). -/
def Amount.list : Amount → List ℝ
  | .none => []
  | .scalar a => [a]
  | .array as => as

/-- An array of shape `(N, 3, n_vec)`. -/
structure Arr where
  nVec : Nat
  rows : List (List V3)

/-- The exceptions of this file. -/
inductive Err
  /-- `ValueError: Misshaped xyz_array`, or numpy's refusal to broadcast. -/
  | shape
  /-- `ValueError: Must include …`. -/
  | missing
  /-- `KeyError`: an antenna number that is not in `antenna_numbers`. -/
  | key
  /-- `IndexError`. -/
  | index
  /-- `TypeError`: arithmetic on `None`. -/
  | type
deriving DecidableEq

/-- `_rotate_matmul_wrapper` (lines 187-229): one matrix per row, or one row for all matrices. -/
def matmulWrapper (x : Arr) (ms : List M3) : Except Err Arr :=
  if x.rows.length = ms.length then
    .ok ⟨x.nVec, List.zipWith (fun m r => r.map m.mulVec) ms x.rows⟩
  else match x.rows with
    | [r] => .ok ⟨x.nVec, ms.map fun m => r.map m.mulVec⟩
    | _ => .error .shape

/-- Lines 297-314 and 442-459: with one matrix and one vector per row the two outer axes are
exchanged before and after, so that the one matrix serves all rows. -/
def applyMatrices (x : Arr) (ms : List M3) : Except Err Arr :=
  if ms.length = 1 ∧ x.nVec = 1 then
    match matmulWrapper ⟨x.rows.length, [x.rows.flatten]⟩ ms with
    | .error e => .error e
    | .ok y => .ok ⟨1, y.rows.flatten.map fun v => [v]⟩
  else matmulWrapper x ms

/-- The matrix of `_rotate_one_axis` for one angle (lines 280-291). -/
def oneMatrix (axis : Fin 3) (a : ℝ) : M3 :=
  let jdx := axis + 1
  let idx := axis + 2
  let m : M3 := fun _ _ => 0
  let m := m.set axis axis 1
  let m := m.set idx idx (Real.cos a)
  let m := m.set jdx jdx (m idx idx)
  let m := m.set idx jdx (Real.sin a)
  m.set jdx idx (-(m idx jdx))

open Classical in
/-- `_rotate_one_axis` (lines 232-314) on an array with three axes. -/
def rotateOne (x : Arr) (amount : Amount) (axis : Fin 3) : Except Err Arr :=
  if amount.NoRot then .ok x
  else applyMatrices x (amount.list.map (oneMatrix axis))

/-- `temp_idx[i]` with Python's negative indices, for `-1 ≤ i ≤ 2`. -/
def pyIdx (t : Fin 3 → Fin 3) (i : Int) : Fin 3 := t (Fin.ofNat 3 (if i < 0 then i + 3 else i).toNat)

/-- The matrix of `_rotate_two_axis` for one pair of angles (lines 389-436).  `junk` is what
`np.empty` returns. -/
def twoMatrix (junk : M3) (axis1 axis2 : Fin 3) (a1 a2 : ℝ) : M3 :=
  let lhd : Bool := decide (axis2 - axis1 ≠ 1)
  let l : Int := if lhd then 1 else 0
  let t : Fin 3 → Fin 3 := fun i => axis1 + i - (if lhd then 1 else 0)
  let lo := if lhd then a2 else a1
  let hi := if lhd then a1 else a2
  let sinLo := Real.sin lo
  let cosLo := Real.cos lo
  let sinHi := Real.sin hi
  let cosHi := Real.cos hi
  let s : ℝ := if lhd then -1 else 1
  let m := junk.set (pyIdx t 0) (pyIdx t 0) cosHi
  let m := m.set (pyIdx t 1) (pyIdx t 1) cosLo
  let m := m.set (pyIdx t 2) (pyIdx t 2) (cosLo * cosHi)
  let m := m.set (pyIdx t (0 + l)) (pyIdx t (1 - l)) (sinLo * sinHi)
  let m := m.set (pyIdx t (0 - l)) (pyIdx t (l - 1)) (cosLo * sinHi * s)
  let m := m.set (pyIdx t (1 - l)) (pyIdx t (0 + l)) 0
  let m := m.set (pyIdx t (1 + l)) (pyIdx t (2 - l)) (sinLo * -s)
  let m := m.set (pyIdx t (l - 1)) (pyIdx t (0 - l)) (sinHi * -s)
  m.set (pyIdx t (2 - l)) (pyIdx t (1 + l)) (sinLo * cosHi * s)

/-- Numpy's broadcasting of two lists of angles. -/
def broadcast2 (l1 l2 : List ℝ) : Except Err (List (ℝ × ℝ)) :=
  if l1.length = l2.length then .ok (l1.zip l2)
  else match l1, l2 with
    | [a], l2 => .ok (l2.map fun b => (a, b))
    | l1, [b] => .ok (l1.map fun a => (a, b))
    | _, _ => .error .shape

/-- `rot_amount1 + rot_amount2` (line 373). -/
def addAmounts (a1 a2 : Amount) : Except Err Amount :=
  match a1, a2 with
  | .scalar a, .scalar b => .ok (.scalar (a + b))
  | a1, a2 => (broadcast2 a1.list a2.list).map fun l => .array (l.map fun p => p.1 + p.2)

open Classical in
/-- `_rotate_two_axis` (lines 317-459) on an array with three axes. -/
def rotateTwo (junk : M3) (x : Arr) (a1 a2 : Amount) (axis1 axis2 : Fin 3) : Except Err Arr :=
  if a1.NoRot ∧ a2.NoRot then .ok x
  else if a1.NoRot then rotateOne x a2 axis2
  else if a2.NoRot then rotateOne x a1 axis1
  else if axis1 = axis2 then
    match addAmounts a1 a2 with
    | .error e => .error e
    | .ok a => rotateOne x a axis1
  else match broadcast2 a1.list a2.list with
    | .error e => .error e
    | .ok l => applyMatrices x (l.map fun p => twoMatrix junk axis1 axis2 p.1 p.2)

end

end Verif.Phasing
