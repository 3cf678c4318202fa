import Verif.FlexJones.Round
import Verif.FlexJones.Make

/-! Objects that meet the hypotheses, and cases where the full claims are false. -/
namespace Verif.FlexJones
open Verif.Np Verif.FreqSort Verif.FlexPol

/-- The value of channel `k` at Jones position `p`. -/
def cell (k : Nat) : Plane Nat := fun i t p => 1000 * k + 100 * i + 10 * t + p + 1

/-- Two windows of two channels, two components. -/
def sample : Obj Nat Nat where
  spws := [7, 2]
  ids := [2, 7, 2, 7]
  lab := [20, 70, 21, 71]
  jones := [-5, -6]
  flexJones := none
  planes := [cell 0, cell 1, cell 2, cell 3]
  total := false

theorem sample_good : Good sample := by
  constructor <;> simp [sample]

theorem sample_distinct : DistinctChans sample := by
  intro w hw
  simp [sample] at hw
  rcases hw with rfl | rfl <;> decide +kernel

/-- C86: the converted object. -/
example : (convert id sample).1.spws = [7, 2, 1, 3] ∧ (convert id sample).1.ids = [2, 7, 2, 7, 3, 1, 3, 1] ∧
    (convert id sample).1.flexJones = some [-5, -5, -6, -6] := by decide +kernel

example : (convert id sample).2 = none :=
  (convert_keeps_partial id (fun _ => .refl _) sample_good rfl (by decide) rfl).1

/-- C87: there and back. -/
example : ∃ c r, convert id sample = (c, none) ∧ remove 0 true c = (r, none) ∧ ∀ i t w l j v, Says r i t w l j v ↔ Says sample i t w l j v := by
  obtain ⟨c, r, h1, h2, -, -, -, -, -, h⟩ := flex_round_trip_partial id (fun _ => .refl _) 0 sample_good sample_distinct rfl (by decide) rfl
    (by intro w hw w' hw'; simp [sample] at hw hw'; rcases hw with rfl | rfl <;> rcases hw' with rfl | rfl <;> rfl)
    (by intro w hw w' hw'; simp [sample] at hw hw'; rcases hw with rfl | rfl <;> rcases hw' with rfl | rfl <;> decide +kernel)
  exact ⟨c, r, h1, h2, h⟩

/-- C87: windows are not put together if they have different channels; the missing components are blank. -/
def flexSample : Obj Nat Nat where
  spws := [7, 2]
  ids := [2, 7, 2, 7]
  lab := [20, 70, 21, 71]
  jones := [0]
  flexJones := some [-6, -5]
  planes := [cell 0, cell 1, cell 2, cell 3]
  total := false

example : Good flexSample ∧ DistinctChans flexSample := by
  refine ⟨by constructor <;> simp [flexSample], ?_⟩
  intro w hw
  simp [flexSample] at hw
  rcases hw with rfl | rfl <;> decide +kernel

example : (remove 0 true flexSample).1.spws = [2, 7] ∧ (remove 0 true flexSample).1.ids = [2, 2, 7, 7] ∧ (remove 0 true flexSample).1.jones = [-5, -6] ∧
    (remove 0 true flexSample).1.planes.map (fun pl => [pl 0 0 0, pl 0 0 1]) = [[1, 0], [2001, 0], [0, 1001], [0, 3001]] := by decide +kernel

/-- C88: in each window one component has data. -/
def halfSample : Obj Nat Nat where
  spws := [7, 2]
  ids := [2, 7, 2, 7]
  lab := [20, 70, 21, 71]
  jones := [-5, -6]
  flexJones := none
  planes := [fun _ _ p => p, fun _ _ p => 1 - p, fun _ _ p => p, fun _ _ _ => 0]
  total := false

example : (make (· == 0) 1 1 halfSample).2 = none ∧ (make (· == 0) 1 1 halfSample).1.flexJones = some [-5, -6] ∧
    (make (· == 0) 1 1 halfSample).1.planes.map (fun pl => pl 0 0 0) = [1, 1, 1, 0] := by decide +kernel

/-- C88: a window with data for both. -/
example : (make (· == 0) 1 1 sample).2 = some .multiple := by decide +kernel

/-- C86, false with `total_quality_array`: the call raises an exception, and the object has been changed already. -/
theorem convert_total_counterexample : ∃ o : Obj Nat Nat, Good o ∧ o.flexJones = none ∧ (convert id o).2 = some .totalQuality ∧ (convert id o).1.ids ≠ o.ids ∧
    (convert id o).1.flexJones ≠ none := by
  refine ⟨{ sample with total := true }, ?_, rfl, by decide +kernel, by decide +kernel, by decide +kernel⟩
  constructor <;> simp [sample]

/-- C87, false with `total_quality_array`: the object is left with several Jones components and with one component per window at the same time. -/
theorem remove_total_counterexample : ∃ o : Obj Nat Nat, Good o ∧ DistinctChans o ∧ (remove 0 true o).2 = some .totalQuality ∧
    (remove 0 true o).1.jones = [-5, -6] ∧ (remove 0 true o).1.flexJones = some [-6, -5] ∧ ¬ Good (remove 0 true o).1 := by
  refine ⟨{ flexSample with total := true }, ?_, ?_, by decide +kernel, by decide +kernel, by decide +kernel, ?_⟩
  · constructor <;> simp [flexSample]
  · intro w hw
    simp [flexSample] at hw
    rcases hw with rfl | rfl <;> decide +kernel
  · intro h
    have e : (remove 0 true { flexSample with total := true }).1.flexJones = some [-6, -5] := by decide +kernel
    have e2 : (remove 0 true { flexSample with total := true }).1.jones = [-5, -6] := by decide +kernel
    have := (h.flex _ e).2
    rw [e2] at this
    simp at this

/-- A window of two channels and one of three. -/
def uneven : Obj Nat Nat where
  spws := [1, 2]
  ids := [1, 1, 2, 2, 2]
  lab := [10, 11, 20, 21, 22]
  jones := [-5, -6]
  flexJones := none
  planes := [cell 0, cell 1, cell 2, cell 3, cell 4]
  total := false

/-- C87, false for windows with different numbers of channels: the way there succeeds, the way back raises an exception. -/
theorem round_trip_counterexample : Good uneven ∧ DistinctChans uneven ∧ (∀ w ∈ uneven.spws, ∀ w' ∈ uneven.spws, chansOf uneven w = chansOf uneven w' → w = w') ∧
    (convert id uneven).2 = none ∧ (remove 0 true (convert id uneven).1).2 = some .broadcast := by
  refine ⟨by constructor <;> simp [uneven], ?_, ?_, by decide +kernel, by decide +kernel⟩
  · intro w hw
    simp [uneven] at hw
    rcases hw with rfl | rfl <;> decide +kernel
  · intro w hw w' hw'
    simp [uneven] at hw hw'
    rcases hw with rfl | rfl <;> rcases hw' with rfl | rfl <;> decide +kernel

example := make_total_counterexample (· == 0) 1 1 (o := { halfSample with total := true }) (r := (make (· == 0) 1 1 halfSample).1) (by decide) rfl
  (Prod.ext rfl (by decide +kernel))

end Verif.FlexJones
