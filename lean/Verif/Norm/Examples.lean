import Verif.Norm.Props
import Mathlib.Algebra.Order.Ring.Rat
import Mathlib.Algebra.Field.Rat

/-! Cases that meet the hypotheses, and data for which normalization is not what it should be. -/

namespace Verif.Norm

/-- Roots of the numbers that occur. -/
def exSqrt (v : ℚ) : ℚ :=
  if v = 4 then 2 else if v = 9 then 3 else if v = 16 then 4 else if v = 25 then 5
  else if v = 1 / 4 then 1 / 2 else if v = 1 / 9 then 1 / 3 else if v = 1 / 16 then 1 / 4 else if v = 1 / 25 then 1 / 5
  else if v = 1 then 1 else 0

/-- Two antennas, two times, in the order of time; polarizations xx, yy, xy, yx.  Antenna 0 has 4 and 9, antenna 1 has 16
and 25; the second time has 9 and 4, 25 and 16. -/
def exObj : Obj ℚ ℚ :=
  { n := 6, nf := 1, time := fun r => if r < 3 then 0 else 1,
    a := fun r => [0, 0, 1, 0, 0, 1].getD r 0, b := fun r => [0, 1, 1, 0, 1, 1].getD r 0,
    pols := [-5, -6, -7, -8],
    data := fun r _ j => ([[4, 9, 1, 1], [60, 60, 60, 60], [16, 25, 1, 1], [9, 4, 1, 1], [60, 60, 60, 60],
      [25, 16, 1, 1]].getD r []).getD j 0,
    flag := fun _ _ _ => false }

theorem ex_inTime : InTime exObj := by
  intro r s hrs hs
  simp only [exObj] at hs ⊢
  by_cases h1 : r < 3
  · rw [if_pos h1]
    split <;> norm_num
  · rw [if_neg h1, if_neg (by omega)]

theorem ex_apart : Apart (1 / 10) exObj := by
  intro r _ s _
  simp only [exObj]
  by_cases h1 : r < 3 <;> by_cases h2 : s < 3 <;> simp [h1, h2] <;> norm_num

theorem ex_oneAuto : OneAuto exObj := by
  intro ant t x y hx hy
  obtain ⟨x1, x2, x3, x4⟩ := hx
  obtain ⟨y1, y2, y3, y4⟩ := hy
  have e1 : exObj.a x = exObj.a y := x2.trans y2.symm
  have e2 : exObj.b x = exObj.b y := x3.trans y3.symm
  have e3 : exObj.time x = exObj.time y := x4.trans y4.symm
  have e4 : exObj.a x = exObj.b x := x2.trans x3.symm
  have key : ∀ x < 6, ∀ y < 6, (exObj.a x = exObj.a y ∧ exObj.b x = exObj.b y ∧ exObj.time x = exObj.time y ∧
      exObj.a x = exObj.b x) → x = y := by decide +kernel
  exact key x x1 y y1 ⟨e1, e2, e3, e4⟩

theorem ex_roots : Roots exSqrt id exObj := by
  intro x hx hab f p hp
  have hj : p < 4 := by
    by_contra hc
    have key : ∀ x < 6, exObj.data x f p = 0 := by
      intro x hx
      have : ∀ l : List ℚ, l.length ≤ 4 → l.getD p 0 = 0 := by
        intro l hl
        rw [List.getD_eq_getElem?_getD, List.getElem?_eq_none (by omega)]
        rfl
      simp only [exObj]
      apply this
      have k2 : ∀ x < 6, (([[4, 9, 1, 1], [60, 60, 60, 60], [16, 25, 1, 1], [9, 4, 1, 1], [60, 60, 60, 60],
        [25, 16, 1, 1]] : List (List ℚ)).getD x []).length ≤ 4 := by decide +kernel
      exact k2 x hx
    rw [id, key x hx] at hp
    exact absurd hp (lt_irrefl 0)
  have key : ∀ x < 6, exObj.a x = exObj.b x → ∀ p < 4,
      (0 < exSqrt (exObj.data x 0 p) ∧ exSqrt (exObj.data x 0 p) * exSqrt (exObj.data x 0 p) = exObj.data x 0 p) ∧
      (0 < exSqrt (exObj.data x 0 p)⁻¹ ∧
        exSqrt (exObj.data x 0 p)⁻¹ * exSqrt (exObj.data x 0 p)⁻¹ = (exObj.data x 0 p)⁻¹) := by decide +kernel
  exact key x hx hab p hj

/-- What is looked at. -/
structure View where
  data : List (List ℚ)
  flag : List (List Bool)
deriving DecidableEq

def view (o : Obj ℚ ℚ) : View :=
  ⟨(List.range o.n).map (fun r => (List.range o.pols.length).map (fun j => o.data r 0 j)),
   (List.range o.n).map (fun r => (List.range o.pols.length).map (fun j => o.flag r 0 j))⟩

/-- C140: 60 / √(4·16) for xx, 60 / √(4·25) for xy; autocorrelations stay but for their cross-hands. -/
example : ((normalize exSqrt id (fun _ => []) (1 / 10) true false exObj).toOption.map view) =
    some ⟨[[4, 9, 1 / 6, 1 / 6], [60 / 8, 60 / 15, 60 / 10, 60 / 12], [16, 25, 1 / 20, 1 / 20],
      [9, 4, 1 / 6, 1 / 6], [60 / 15, 60 / 8, 60 / 12, 60 / 10], [25, 16, 1 / 20, 1 / 20]],
      List.replicate 6 [false, false, false, false]⟩ := by decide +kernel

example : ∃ o', normalize exSqrt id (fun _ => []) (1 / 10) true false exObj = .ok o' ∧ o'.pols = [-5, -6, -7, -8] := by
  cases h : normalize exSqrt id (fun _ => []) (1 / 10) true false exObj with
  | error e =>
    have k : (normalize exSqrt id (fun _ => []) (1 / 10) true false exObj).isOk = true := by decide +kernel
    rw [h] at k
    exact absurd k (by simp [Except.isOk, Except.toBool])
  | ok o' =>
    exact ⟨o', rfl, (normalized_partial (by norm_num) ex_inTime ex_apart ex_oneAuto ex_roots h).1.2.2.2.2⟩

/-- C141: undone. -/
example : ((normalize exSqrt id (fun _ => []) (1 / 10) true false exObj >>=
    normalize exSqrt id (fun _ => []) (1 / 10) true true).toOption.map view) = some (view exObj) := by decide +kernel

/-- Without autocorrelations it is refused. -/
example : (normalize exSqrt id (fun _ => []) (1 / 10) true false
    { exObj with a := fun _ => 0, b := fun _ => 1 } : Except Err (Obj ℚ ℚ)).toOption.isNone = true := by decide +kernel

/-- The same rows one baseline after the other: (0,0), (0,1), (1,1), each at the two times; only xx. -/
def exByBl : Obj ℚ ℚ :=
  { n := 6, nf := 1, time := fun r => if r % 2 = 0 then 0 else 1,
    a := fun r => [0, 0, 0, 0, 1, 1].getD r 0, b := fun r => [0, 0, 1, 1, 1, 1].getD r 0,
    pols := [-5], data := fun r _ _ => [4, 16, 60, 60, 9, 25].getD r 1, flag := fun _ _ _ => false }

/-- An order of these rows by time. -/
def exSort (_ : List ℚ) : List Nat := [0, 2, 4, 1, 3, 5]

/-- It is one: a rearrangement in the order of time. -/
theorem exSort_sorts : (exSort (timesOf exByBl)).Perm (List.range 6) ∧
    (exSort (timesOf exByBl)).Pairwise (fun r s => exByBl.time r ≤ exByBl.time s) := by decide +kernel

/-- C140 is false for rows that are not in the order of time (line 11951 of uvdata.py sorts the times exactly if they
are sorted): baseline (0,1) at the first time has autocorrelations 4 and 9 at that time, 60 / √(4·9) = 10, but it is
divided by those of the second time, 60 / √(16·25) = 3. -/
theorem order_counterexample :
    Apart (1 / 10) exByBl ∧ Auto exByBl 0 0 0 ∧ Auto exByBl 1 0 4 ∧ exByBl.time 2 = 0 ∧
      ((normalize exSqrt id exSort (1 / 10) true false exByBl).toOption.map (fun o => (o.data 2 0 0, o.data 3 0 0))) =
        some (3, 3) := by
  have k : ((0 < 6 ∧ exByBl.a 0 = 0 ∧ exByBl.b 0 = 0 ∧ exByBl.time 0 = 0) ∧
      (4 < 6 ∧ exByBl.a 4 = 1 ∧ exByBl.b 4 = 1 ∧ exByBl.time 4 = 0)) ∧ exByBl.time 2 = 0 := by decide +kernel
  refine ⟨?_, k.1.1, k.1.2, k.2, by decide +kernel⟩
  intro r _ s _
  simp only [exByBl]
  by_cases h1 : r % 2 = 0 <;> by_cases h2 : s % 2 = 0 <;> simp [h1, h2] <;> norm_num

/-- Without the autocorrelation of antenna 1 at the second time, baseline (0,1) at that time gets no flag: that of the
first time is used. -/
theorem order_flags_counterexample :
    ((normalize exSqrt id exSort (1 / 10) true false
      { exByBl with b := fun r => [0, 0, 1, 1, 1, 2].getD r 0 }).toOption.map view) =
      some ⟨[[4], [16], [60 / 12], [60 / 12], [9], [25]], [[false], [false], [false], [false], [false], [true]]⟩ := by
  decide +kernel

/-- But undoing gives the data back, so this is not seen (C141). -/
example : ((normalize exSqrt id exSort (1 / 10) true false exByBl >>=
    normalize exSqrt id exSort (1 / 10) true true).toOption.map view) = some (view exByBl) := by decide +kernel

/-- Normalization of the autocorrelations as well cannot be undone: they are 1 afterwards. -/
theorem autos_counterexample :
    ((normalize exSqrt id exSort (1 / 10) false false { exObj with pols := [-5] } >>=
      normalize exSqrt id exSort (1 / 10) false true).toOption.map view) =
      some ⟨[[1], [60 / 8], [1], [1], [60 / 15], [1]], [[false], [false], [false], [false], [false], [false]]⟩ := by
  decide +kernel

/-- Data whose autocorrelation is flagged are set to zero; undoing does not bring them back. -/
theorem flagged_counterexample :
    ((normalize exSqrt id exSort (1 / 10) true false
        { exObj with pols := [-5], flag := fun r _ _ => r == 0 } >>=
      normalize exSqrt id exSort (1 / 10) true true).toOption.map view) =
      some ⟨[[4], [0], [16], [9], [60], [25]], [[true], [true], [false], [false], [false], [false]]⟩ := by
  decide +kernel

end Verif.Norm
