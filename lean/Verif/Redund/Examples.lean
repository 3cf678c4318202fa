import Verif.Redund.AntRed
import Mathlib.Algebra.Order.Ring.Rat
import Mathlib.Algebra.Field.Rat
import Mathlib.Data.Rat.Floor

/-! Concrete cases and counterexamples for C24, C25, C53, C54. -/
namespace Verif.Redund
open Verif.Np

/-- Rounding to the nearest integer. -/
def rnd1 (x : ℚ) : Int := Rat.floor (x + 1 / 2)

theorem rnd1_near (x : ℚ) : |x - (rnd1 x : ℚ)| ≤ 1 / 2 := by
  have h : (rnd1 x) = ⌊x + 1 / 2⌋ := rfl
  rw [h]
  have h1 := Int.floor_le (x + 1 / 2)
  have h2 := Int.lt_floor_add_one (x + 1 / 2)
  rw [abs_le]
  constructor <;> linarith

/-- An injective hash of positions. -/
def hash1 (l : List Nat) : Int := ((l.foldr (fun k h => 2 ^ k * (2 * h + 1)) 0 : Nat) : Int)

theorem odd_part (k k' h h' : Nat) (e : 2 ^ k * (2 * h + 1) = 2 ^ k' * (2 * h' + 1)) : k = k' ∧ h = h' := by
  induction k generalizing k' with
  | zero =>
    cases k' with
    | zero => simp at e; exact ⟨rfl, e⟩
    | succ k' => rw [Nat.pow_succ, Nat.mul_right_comm] at e; omega
  | succ k ih =>
    cases k' with
    | zero => rw [Nat.pow_succ, Nat.mul_right_comm] at e; omega
    | succ k' =>
      rw [Nat.pow_succ, Nat.pow_succ, Nat.mul_right_comm, Nat.mul_right_comm (2 ^ k')] at e
      have := ih k' (Nat.eq_of_mul_eq_mul_right (by decide) e)
      exact ⟨by omega, this.2⟩

theorem hash1_inj (a b : List Nat) (h : hash1 a = hash1 b) : a = b := by
  unfold hash1 at h
  have h' := Int.ofNat.inj h
  clear h
  induction a generalizing b with
  | nil =>
    cases b with
    | nil => rfl
    | cons y b =>
      rw [List.foldr_nil, List.foldr_cons] at h'
      have : 0 < 2 ^ y * (2 * (b.foldr (fun k h => 2 ^ k * (2 * h + 1)) 0) + 1) := Nat.mul_pos (Nat.pow_pos (by decide)) (by omega)
      omega
  | cons x a ih =>
    cases b with
    | nil =>
      rw [List.foldr_nil, List.foldr_cons] at h'
      have : 0 < 2 ^ x * (2 * (a.foldr (fun k h => 2 ^ k * (2 * h + 1)) 0) + 1) := Nat.mul_pos (Nat.pow_pos (by decide)) (by omega)
      omega
    | cons y b =>
      rw [List.foldr_cons, List.foldr_cons] at h'
      obtain ⟨rfl, h2⟩ := odd_part _ _ _ _ h'
      rw [ih b h2]

/-! `find_clusters` -/

/-- Without `strict`, points in a chain 0 – 1 – 2, where the ends are farther apart than the tolerance, are in no group at
all. With `strict` an error is raised. -/
theorem find_clusters_loose_counterexample :
    findClusters hash1 [0, 1, 2] 1 [10, 11, 12] [[(0 : ℚ), 0, 0], [1, 0, 0], [2, 0, 0]] (3 / 2) false = some [] ∧
    findClusters hash1 [0, 1, 2] 1 [10, 11, 12] [[(0 : ℚ), 0, 0], [1, 0, 0], [2, 0, 0]] (3 / 2) true = none := by
  decide +kernel

example : findClusters hash1 [1, 0, 2] 1 [10, 11, 12] [[(1 : ℚ), 0, 0], [0, 0, 0], [5, 0, 0]] (3 / 2) true =
    some [[10, 11], [12]] := by
  decide +kernel

theorem three_input : Input hash1 [1, 0, 2] 1 [10, 11, 12] [[(1 : ℚ), 0, 0], [0, 0, 0], [5, 0, 0]] where
  len := rfl
  nodup := by decide
  dims := by simp
  blocks := by decide
  order := ⟨by decide +kernel, by simp⟩
  hash_inj := hash1_inj

example := find_clusters_strict (3 / 2 : ℚ) three_input [[10, 11], [12]] (by decide +kernel)

/-! `find_clusters_grid` -/

example : findClustersGrid rnd1 [10, 11, 12] [((0 : ℚ), 0, 0), (5, 0, 0), (1 / 4, 0, 0)] 1 = [[10, 12], [11]] := by
  decide +kernel

/-- Two members of one group can be farther apart than the tolerance. -/
theorem grid_far_members_counterexample :
    findClustersGrid rnd1 [10, 11, 12] [((0 : ℚ), 0, 0), (-9 / 8, -9 / 8, -9 / 8), (11 / 8, 11 / 8, 11 / 8)] 4 =
      [[10, 11, 12]] ∧ ¬sq3 ((-9 / 8 : ℚ), -9 / 8, -9 / 8) (11 / 8, 11 / 8, 11 / 8) ≤ 4 * 4 := by
  decide +kernel

/-- Two equal vectors can be in different groups: which group a vector joins depends on the groups present when it is
looked at. -/
theorem grid_equal_vectors_counterexample :
    findClustersGrid rnd1 [1, 2, 3, 4] [((1 : ℚ), 0, 0), (0, 0, 0), (-1, 0, 0), (0, 0, 0)] 4 = [[1, 2], [3, 4]] := by
  decide +kernel

/-- Two vectors closer than the tolerance can be in different groups. -/
theorem grid_near_vectors_counterexample :
    findClustersGrid rnd1 [1, 2] [((0 : ℚ), 0, 0), (2, 0, 0)] 4 = [[1], [2]] ∧ sq3 ((0 : ℚ), 0, 0) (2, 0, 0) < 4 * 4 := by
  decide +kernel

example : (findClustersGrid rnd1 [10, 11, 12] [((0 : ℚ), 0, 0), (5, 0, 0), (1 / 4, 0, 0)] 1).flatten.Perm [10, 11, 12] :=
  (grid_partition rnd1 _ _ 1 rfl).1

example := grid_redundant rnd1 rnd1_near [10, 11, 12] [((0 : ℚ), 0, 0), (5, 0, 0), (1 / 4, 0, 0)] 1 (by norm_num) rfl (by decide)
  [10, 12] (by decide +kernel)

/-! Orientation -/

example : ¬Small (1 : ℚ) (1 / 2, -3, 7) ∧ conjugated (1 : ℚ) (1 / 2, -3, 7) = true ∧ conjugated (1 : ℚ) (-1 / 2, 3, -7) = false := by
  unfold Small
  decide +kernel

/-- Near the tolerance the orientation is not continuous: two vectors closer than the tolerance can be oriented in opposite
ways. -/
theorem orient_near_counterexample :
    sq3 ((-11 / 10 : ℚ), 5, 0) (-9 / 10, 5, 0) < 1 * 1 ∧ orient 1 ((-11 / 10 : ℚ), 5, 0) = (11 / 10, -5, 0) ∧
      orient 1 ((-9 / 10 : ℚ), 5, 0) = (-9 / 10, 5, 0) := by
  decide +kernel

/-! Antenna pairs -/

/-- Three antennas on a line, in the order east, middle, west. -/
def line3 : List (V3 ℚ) := [(20, 0, 0), (10, 0, 0), (0, 0, 0)]

theorem line3_input : AntInput [3, 1, 2] line3 where
  nodup := by decide
  valid := by decide
  few := by decide
  len := by decide

/-- The pairs come out in the direction from west to east, whatever the order of the antennas. -/
example : antRed rnd1 1 false [3, 1, 2] line3 = .ok [[69633, 67587], [69635]] ∧ ants1 3 69633 = .ok (2, 1) ∧
    ants1 3 67587 = .ok (1, 3) ∧ ants1 3 69635 = .ok (2, 3) := by
  decide +kernel

example := antenna_redundancies rnd1 rnd1_near 1 (by norm_num) true [3, 1, 2] line3 line3_input

end Verif.Redund
