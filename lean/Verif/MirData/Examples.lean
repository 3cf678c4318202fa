import Mathlib.Algebra.Order.Ring.Rat
import Mathlib.Algebra.Order.Field.Rat
import Mathlib.Data.Rat.Floor
import Mathlib.Data.Rat.Sqrt
import Verif.MirData.Tsys
import Verif.MirData.Load

/-!
# Cases that meet the hypotheses
-/

namespace Verif.MirData

def spec : List (Chan ℚ) := [⟨3, -5, false, 1⟩, ⟨1 / 3, 7, false, 1⟩, ⟨9, 9, true, 1⟩, ⟨2, 2, false, 0⟩]

example := conv_back spec

example := packed_range spec

example : (rawToVis (visToRaw (rawToVis ⟨-3, [(5, -7), (-32768, -32768), (32767, -32767)]⟩ : List (Chan ℚ))) : List (Chan ℚ)) =
    rawToVis ⟨-3, [(5, -7), (-32768, -32768), (32767, -32767)]⟩ :=
  raw_back_partial _ (by decide) (by decide)

example : (rawToVis ⟨1, [(5, -7), (-32768, 3)]⟩ : List (Chan ℚ)) = [⟨10, -14, false, 1⟩, ⟨0, 0, true, 0⟩] := by decide +kernel

example := flaggedLarge_counterexample (1 : ℚ) 40000 1 1 (by norm_num) (by norm_num)

example := edge_counterexample (K := ℚ) 4

example := tiny_counterexample (K := ℚ) (-70) (by decide)

/-! ## Averaging -/

example : rechunk true 2 spec = some [⟨5 / 3, 1, false, 1⟩, ⟨0, 0, true, 0⟩] := by decide +kernel

example : rechunk true 3 spec = none := by decide +kernel

example := rechunk_isSome true 2 spec

example := rechunk_mean true 2 (by decide) spec [⟨5 / 3, 1, false, 1⟩, ⟨0, 0, true, 0⟩] (by decide +kernel)

theorem spec_nonneg : Nonneg spec := by
  intro c hc _
  simp only [spec, List.mem_cons, List.not_mem_nil, or_false] at hc
  rcases hc with rfl | rfl | rfl | rfl <;> norm_num

example : (rechunk true 2 spec).bind (rechunk true 2) = rechunk true 4 spec := rechunk_twice true 2 2 (by decide) (by decide) spec spec_nonneg

example : (rechunk true 4 spec) = some [⟨5 / 3, 1, false, 1 / 2⟩] := by decide +kernel

example := rechunkLoaded_partial (fun i => i) true [(2, spec), (1, spec)]

/-- A spectrum of one channel is not averaged; when data are in another order than the table, averaging fails. -/
example : rechunkLoaded (fun i => if i = 1 then 1 else 4) [1, 2] true [(2, spec), (1, [⟨1, 1, false, (1 : ℚ)⟩])] = none := by
  rw [rechunkOrder_counterexample _ 1 2 (by decide)]
  decide +kernel

/-! ## System temperatures -/

/-- A function that is the root of squares. -/
def sq (x : ℚ) : ℚ := if x = 0 then 0 else if x = 4 then 2 else if x = 16 then 4 else if x = 36 then 6 else if x = 9 then 3 else 1

example : tsysWt sq (1 / 2) false 1 2 4 [⟨1, 2, false, 1⟩] = [⟨2, 4, false, 2000000⟩] := by decide +kernel

theorem sq_ne : ∀ x, 0 < x → sq x ≠ 0 := by
  intro x hx
  unfold sq
  split_ifs with h1
  · exact absurd h1 hx.ne'
  all_goals norm_num

theorem sqrt_sq : ∀ x : ℚ, 0 < x → Rat.sqrt (x * x) = x := fun x hx => by rw [Rat.sqrt_eq, abs_of_pos hx]

example := tsysWt_meaning Rat.sqrt sqrt_sq (1 / 2) 6 2 4 (by norm_num) (by norm_num) (by norm_num) (by norm_num) spec

example := tsys_agree Rat.sqrt sqrt_sq (1 / 2) (2 * 2) (3 * 3) 2 4 (by norm_num) (by norm_num) (by norm_num) (by norm_num) (by norm_num)
  ⟨(by rw [sqrt_sq 2 (by norm_num)]; norm_num), (by rw [sqrt_sq 3 (by norm_num)]; norm_num)⟩ spec

example := tsys_rechunk sq sq_ne (1 / 2) 1 2 4 (by norm_num) (by norm_num) (by norm_num) (by norm_num) 2 (by decide) spec spec_nonneg

example := tsysWt_undo sq sq_ne (1 / 2) 1 2 4 (by norm_num) (by norm_num) (by norm_num) (by norm_num) spec

example := tsysWt_flags sq (by decide +kernel) (1 / 2) 0 2 4 (Or.inl rfl) true spec

example := tsysDet_flags sq (1 / 2) 2 4 (some 0) (some 4) (Or.inr (Or.inr ⟨0, Or.inl rfl, Or.inl (le_refl _)⟩)) false spec

example : tsysDet (1 / 2) false (pairRoot sq (some 4) (some 9)) 2 4 [⟨1, 2, false, 1⟩] = [⟨6, 12, false, 2000000 / 9⟩] := by decide +kernel

example := tsysDetUndo_counterexample (1 / 2 : ℚ) 6 2 4 (by norm_num) (by norm_num) (by norm_num) (by norm_num) spec

/-- The weight is not 1 again. -/
example : tsysDet (1 / 2) true (pairRoot sq (some 4) (some 9)) 2 4 (tsysDet (1 / 2) false (pairRoot sq (some 4) (some 9)) 2 4 [⟨1, 2, false, 1⟩]) =
    [⟨1, 2, false, 1 / 1296⟩] := by decide +kernel

example := rechunk_scaled 2 (by decide) (3 : ℚ) 5 (by norm_num) spec spec_nonneg

example : tsysCmd true false false = none ∧ tsysCmd true true false = some false ∧ tsysCmd true false true = some true := by decide

/-! ## Loading -/

/-- Packed data are the numbers of records, visibilities ten times as much; system temperatures add one. -/
example : load (fun i => i) (fun r => 10 * r) (fun _ v => v) (fun _ v => v + 1) [2, 5] false true none none ⟨none, some [(5, 5), (7, 7), (2, 2)], false⟩ =
    ⟨some [(2, 21), (5, 51)], none, true⟩ := by rfl

theorem start_good : Good (fun i => i) (fun r => 10 * r) (fun _ v => v) (fun _ v => v + 1) (⟨none, some [(5, 5), (7, 7), (2, 2)], false⟩ : St Nat Nat) :=
  ⟨fun v h => (by cases h), fun r h x hx => (by cases h; simp at hx; rcases hx with rfl | rfl | rfl <;> rfl)⟩

example := load_good_partial (fun i => i) (fun r => 10 * r) (fun _ v => v) (fun _ v => v + 1) [2, 5] false true none none _ start_good (Or.inr fun _ _ => rfl)

example := load_again (fun i => i) (fun r => 10 * r) (fun _ v => v) (fun _ v => v + 1) [2, 5] true none (⟨none, some [(5, 5)], false⟩ : St Nat Nat)

/-- Asked for system temperatures, but not used. -/
example : load (fun i => i) (fun r => 10 * r) (fun _ v => v) (fun _ v => v + 1) [2, 5] false true none none
    (load (fun i => i) (fun r => 10 * r) (fun _ v => v) (fun _ v => v + 1) [2, 5] false false none none ⟨none, none, false⟩) =
      ⟨some [(2, 20), (5, 50)], none, false⟩ := by rfl

end Verif.MirData
