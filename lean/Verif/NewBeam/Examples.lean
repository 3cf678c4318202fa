import Mathlib.Data.Rat.Defs
import Mathlib.Algebra.Order.Ring.Rat
import Verif.NewBeam.Props
import Verif.NewBeam.Auto

/-! Concrete cases that meet the hypotheses. -/

namespace Verif.NewBeam

/-- A power beam on two axes. -/
def args1 : Args ℚ ℤ :=
  { norm := "Peak".toList, freqs := [1, 2], pols := some (.names ["xx".toList, "YY".toList]), axis1 := some [0, 1, 2], axis2 := some [0, 1], orient := some "EW".toList }

/-- An electric field of a phased array of three elements on a map. -/
def args2 : Args ℚ ℤ :=
  { norm := "physical".toList, freqs := [1, 2], feeds := some [['x'], ['y']], nside := some 1, elements := some ⟨[2, 3], fun _ => 4⟩ }

def seen (r : Except Err (Beam ℚ ℤ)) : Option (List Nat × List Int × List Nat) :=
  match r with
  | .ok b => some (b.data.shape, match b.kind with
    | .efield _ => []
    | .power l => l, (b.phased.map (·.coupling.shape)).getD [])
  | .error _ => none

abbrev mk := new (K := ℚ) (V := ℤ) 3 (fun _ => true)

theorem args1_ok : ∃ b, mk args1 = .ok b := by
  have h : (seen (mk args1)).isSome = true := by decide +kernel
  cases hn : mk args1 with
  | ok c => exact ⟨c, rfl⟩
  | error e => rw [hn] at h; cases h

theorem args2_ok : ∃ b, mk args2 = .ok b := by
  have h : (seen (mk args2)).isSome = true := by decide +kernel
  cases hn : mk args2 with
  | ok c => exact ⟨c, rfl⟩
  | error e => rw [hn] at h; cases h

/-! `accept`, `made` -/

example : Acceptable 3 (fun _ => true) args1 := (accept _ _ (fun _ => rfl) _).1 args1_ok
example : Acceptable 3 (fun _ => true) args2 := (accept _ _ (fun _ => rfl) _).1 args2_ok
example : ∃ b, Made args1 b := args1_ok.imp fun _ h => made _ _ _ _ h
example : ∃ b, Made args2 b := args2_ok.imp fun _ h => made _ _ _ _ h
example : seen (mk args1) = some ([1, 2, 2, 2, 3], [-5, -6], []) := by decide +kernel
example : seen (mk args2) = some ([2, 2, 2, 12], [], [3, 3, 2, 2, 2]) := by decide +kernel
/-- Three feeds are too many. -/
example : ¬ Acceptable 3 (fun _ => true) { args2 with feeds := some [['x'], ['y'], ['x']], elements := none } := by
  rw [← accept _ _ (fun _ => rfl)]
  rintro ⟨c, h⟩
  have h : mk { args2 with feeds := some [['x'], ['y'], ['x']], elements := none } = .ok c := h
  have e : (seen (mk { args2 with feeds := some [['x'], ['y'], ['x']], elements := none })).isSome = false := by decide +kernel
  rw [h] at e
  cases e

/-! The counterexamples -/

example : ∀ b, mk { args1 with system := some sAzZa } ≠ .ok b := system_counterexample _ _ _ sAzZa rfl rfl
example : ∀ b, mk { args1 with pols := some (.nums [-5, -7]) } ≠ .ok b := cross_counterexample _ _ _ [-5, -7] (-7) rfl (by decide) (by unfold IsCross; omega) rfl
/-- With data it is accepted. -/
example : (seen (mk { args1 with pols := some (.nums [-5, -7]), data := some (⟨[1, 2, 2, 2, 3], fun _ => 1⟩, .complex) })).isSome = true := by decide +kernel
example : ∀ b, mk { args1 with pols := some (.names ["ee".toList]) } ≠ .ok b := names_counterexample _ _ _ ["ee".toList] rfl (by simp)

/-! Power beams: `xx`, `pQ` and `xy` at two pixels. The magnitude of (3, 4) is 5. -/

def pow1 : Power ℚ Bool := ⟨[-5, 2, -7], .complex, fun k i => match k, i with
  | 0, false => (3, 4)
  | 0, true => (2, 0)
  | 1, _ => (-1, 0)
  | _, _ => (1, 7)⟩

def norm1 (z : ℚ × ℚ) : ℚ := if z.2 = 0 then |z.1| else 5

theorem pow1_valid : pow1.valid := by unfold Power.valid; decide
theorem nc0 : pow1.notCross 0 := ⟨-5, rfl, by unfold IsCross; omega⟩
theorem nc1 : pow1.notCross 1 := ⟨2, rfl, by unfold IsCross; omega⟩
theorem norm1_real : ∀ x, norm1 (x, 0) = |x| := fun x => by simp [norm1]

example : ¬ ∃ b', checkAuto norm1 [false, true] false pow1 = .ok b' := by
  rintro ⟨b', h⟩
  have := ((auto_check norm1 _ _ _ pow1_valid).1 h).2 0 nc0 false (by simp)
  norm_num [pow1] at this
example : checkAuto norm1 [true] false pow1 = .ok pow1 := by
  rw [auto_check norm1 _ _ _ pow1_valid]
  refine ⟨rfl, ?_⟩
  rintro k ⟨p, hp, hx⟩ i hi
  obtain rfl : i = true := by simpa using hi
  match k with
  | 0 => rfl
  | 1 => rfl
  | 2 => cases hp; exact absurd (by unfold IsCross; omega) hx
  | (n + 3) => cases hp
example : ∃ b', checkAuto norm1 [false, true] true pow1 = .ok b' ∧ b'.pols = [-5, 2, -7] ∧ (b'.val 0 false).2 = 0 ∧ b'.val 2 true = (1, 7) := by
  obtain ⟨b', h1, h2, h3, h4, -⟩ := auto_fixed norm1 [false, true] pow1 pow1_valid
  exact ⟨b', h1, h2, h3 0 nc0 false (by simp), h4 2 (-7) rfl (by unfold IsCross; omega) true⟩
example (b' : Power ℚ Bool) (h : checkAuto norm1 [false, true] true pow1 = .ok b') : b'.val 0 true = (2, 0) :=
  auto_keeps_partial norm1 norm1_real _ _ _ pow1_valid h nc0 rfl (by norm_num)
example : ∃ b', checkAuto norm1 [false, true] true pow1 = .ok b' ∧ b'.val 1 true = (- -1, 0) :=
  negative_counterexample norm1 norm1_real _ _ pow1_valid nc1 rfl (by norm_num) nc0 (j := false) (by simp) (by norm_num [pow1])

example : ∃ b', checkAuto norm1 [false, true] true pow1 = .ok b' ∧ (b'.val 0 false).1 ≠ (3 : ℚ) :=
  magnitude_counterexample norm1 _ pow1 pow1_valid (i := false) (by norm_num [pow1, norm1]) nc0 (by simp) (by norm_num [pow1])

end Verif.NewBeam
