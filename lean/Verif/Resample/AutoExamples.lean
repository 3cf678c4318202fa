import Verif.Resample.AutoProps
import Verif.Resample.Examples

/-! # Resampling to a target time: cases that meet the hypotheses -/
set_option linter.unusedSectionVars false

namespace Verif.Resample

def seesAuto : Except AutoErr (List (Row ℚ ℚ Unit)) → Option (List Seen)
  | .ok l => some (l.map sees)
  | .error _ => none

/-- A baseline with integrations of four seconds, one with twenty seconds. -/
def mixedRows : List (Row ℚ ℚ Unit) :=
  [row 1 0 4 0 3 false 1, row 1 (4 / 86400) 4 0 6 false 1, row 1 (8 / 86400) 4 0 9 false 1, row 2 0 20 0 5 false 1]

/-- Three rows are averaged to twelve seconds, which are cut into two halves. -/
example : (seesAuto (resample std 10 false false true false 1 id mixedRows)).isSome = true := by decide +kernel
example : nNew std 10 12 = 2 := by
  have h1 : ⌊(12 / 10 : ℚ)⌋ = 1 := by rw [Int.floor_eq_iff]; norm_num
  have h2 : ⌈(12 / 10 : ℚ)⌉ = 2 := by rw [Int.ceil_eq_iff]; norm_num
  unfold nNew
  dsimp only
  rw [h1, h2]
  decide +kernel
/-- Without the long row the average stays. -/
example : seesAuto (resample std 10 false false true false 1 id (mixedRows.take 3)) =
    some [⟨1, 4 / 86400, 12, 0, 6, false, 1⟩] := by decide +kernel

theorem four_far (k : Nat) : (k : ℚ) * 4 ≠ 10 ∧ isclose std.rInt std.aInt ((k : ℚ) * 4) 10 = false ∧
    isclose std.r std.a ((k : ℚ) * 4 / 10) 1 = false := by
  have hk : (k : ℚ) * 4 ≤ 8 ∨ 12 ≤ (k : ℚ) * 4 := by
    rcases Nat.lt_or_ge k 3 with h | h
    · left
      have : (k : ℚ) ≤ 2 := by exact_mod_cast (by omega : k ≤ 2)
      linarith
    · right
      have : (3 : ℚ) ≤ k := by exact_mod_cast h
      linarith
  refine ⟨by rcases hk with h | h <;> intro he <;> linarith, ?_, ?_⟩
  · simp only [isclose, std]
    rcases hk with h | h
    · rw [abs_of_nonpos (by linarith)]; norm_num; linarith
    · rw [abs_of_nonneg (by linarith)]; norm_num; linarith
  · simp only [isclose, std]
    rcases hk with h | h
    · rw [abs_of_nonpos (by linarith)]; norm_num; linarith
    · rw [abs_of_nonneg (by linarith)]; norm_num; linarith

example : ∀ out, resample std 10 false false true false 1 id mixedRows = .ok out → ∀ p ∈ out, p.bl = 1 → p.integ < 10 :=
  fun _ h => both_counterexample (a := 4) (by norm_num [std]) (by norm_num [std]) (by norm_num) (fun _ => .refl _)
    (by decide +kernel) ⟨row 2 0 20 0 5 false 1, by simp [mixedRows], by norm_num [row]⟩ rfl rfl (by decide +kernel) (by decide +kernel)
    (by norm_num) four_far h

example : resample std 7 false false true false 1 id mixedRows ≠ .ok mixedRows := by
  intro h
  have : (seesAuto (resample std 7 false false true false 1 id mixedRows)) = seesAuto (.ok mixedRows) := by rw [h]
  revert this
  decide +kernel
example : resample std 7 false false true false 1 id (mixedRows.take 3) = .ok (mixedRows.take 3) :=
  resample_nothing (by norm_num) (by simp [mixedRows]) (by decide +kernel)
    (fun ⟨r, hr, h⟩ => by
      have : ∀ r ∈ mixedRows.take 3, ¬ 2 * r.integ ≤ 7 := by decide +kernel
      exact absurd h (this r hr))
    (fun ⟨r, hr, h⟩ => by
      have : ∀ r ∈ mixedRows.take 3, ¬ 2 * 7 ≤ r.integ := by decide +kernel
      exact absurd h (this r hr))
example (out) := resample_down (t := std) (target := 10) (onlyDown := true) (onlyUp := false) (keep := true) (summing := false)
  (nphase := 1) (sort := id) (out := out) (by norm_num) (rows := mixedRows) (by simp [mixedRows]) (by decide +kernel)
  ⟨row 1 0 4 0 3 false 1, by simp [mixedRows], by norm_num [row]⟩ rfl (fun _ => rfl)
example (out) := resample_up (t := std) (target := 10) (onlyDown := false) (onlyUp := true) (keep := true) (summing := false)
  (nphase := 1) (sort := id) (out := out) (by norm_num) (rows := mixedRows) (by simp [mixedRows]) (by decide +kernel)
  (fun _ => rfl) ⟨row 2 0 20 0 5 false 1, by simp [mixedRows], by norm_num [row]⟩ rfl
example {out} (h : resample std 10 false false true false 1 id mixedRows = .ok out) := resample_short (by norm_num)
  (by norm_num [std]) (by norm_num [std]) (by norm_num [std]) (by norm_num [std]) (by simp [mixedRows])
  ⟨row 2 0 20 0 5 false 1, by simp [mixedRows], by norm_num [row]⟩ rfl h
def noneBorderline : Except Err (List (Row ℚ ℚ Unit)) → Bool
  | .ok l => l.all fun r => decide (¬ Borderline std 10 r)
  | .error _ => true

example {out} (h : resample std 10 false false true false 1 id mixedRows = .ok out) (b : Int) :
    over (ofBl b out) Row.integ = over (ofBl b mixedRows) Row.integ :=
  resample_conserves_partial (by norm_num [std]) (by norm_num [std]) (by norm_num) (fun _ => .refl _) (by decide +kernel)
    (by decide +kernel)
    (fun mid hm r hr => by
      have : noneBorderline (downsample std (.minInt 10) true false 1 id mixedRows) = true := by decide +kernel
      have h' : downsample std (.minInt 10) true false 1 id mixedRows = .ok mid := hm
      rw [h'] at this
      exact of_decide_eq_true (List.all_eq_true.1 this r hr)) h b
/-- An average of 10.0004 seconds is lost. -/
example : seesAuto (resample std 10 false false true false 1 id
    [row 1 0 (5 - 1 / 1000) 0 3 false 1, row 1 (5 / 86400) (5 + 14 / 10000) 0 6 false 1, row 2 0 20 0 5 false 1]) =
    some [⟨2, -5 / 86400, 10, 0, 5, false, 1⟩, ⟨2, 5 / 86400, 10, 0, 5, false, 1⟩] := by decide +kernel

end Verif.Resample
