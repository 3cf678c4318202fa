import Verif.Scan.Props

/-! # Examples -/

namespace Verif.Scan

example : ([3, 1, 7] : List Int).Nodup := by decide
example : ∀ x ∈ ([1, 1, 3, 1, 3, 3, 3] : List Int), x ∈ ([3, 1, 7] : List Int) := by decide
example : slices [3, 1, 7] [1, 1, 3, 1, 3, 3, 3] = [(2, 3), (4, 7), (0, 2), (3, 4)] := by decide +kernel
example : setScans false none [3, 1, 7] [1, 1, 3, 1, 3, 3, 3] = some [1, 1, 2, 3, 4, 4, 4] := by decide +kernel
example : setScans true (some [9]) [3, 1] [1] = some [1] := by decide +kernel
example : setScans false (some [9]) [3, 1] [1] = some [9] := by decide +kernel
example : Begins [1, 1, 3] 2 ∧ ¬ Begins [1, 1, 3] 1 := by
  constructor
  · exact (begins_iff [1, 1, 3] 1).2 ⟨by decide, by decide⟩
  · exact fun h => ((begins_iff [1, 1, 3] 0).1 h).2 rfl

/-- Scan numbers of rows of these data have the first phase center in two scans. -/
example : ∃ n, setScans false none [3, 1, 7] [1, 1, 3, 1, 3, 3, 3] = some n ∧ Numbers [1, 1, 3, 1, 3, 3, 3] n :=
  scans_number (by decide) (by decide) false (Or.inl rfl)

end Verif.Scan
