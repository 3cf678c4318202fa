import Verif.FhdNames.Props

/-!
# Concrete cases for C230
-/
namespace Verif.FhdNames

/-- The file of data `p` in the folder `run`. -/
def file (k : Kind) (d p : Path) : Path := d ++ '/' :: (subFolder k ++ '/' :: (p ++ suffix k ++ ".sav".toList))

theorem file_is (k : Kind) {d p : Path} (h1 : d ≠ []) (h2 : d.getLast? ≠ some '/') (h3 : '/' ∉ p) : IsFile k d p (file k d p) :=
  ⟨⟨_, by decide, rfl⟩, ⟨h1, h2⟩, h3⟩

/-- Visibilities and layout. -/
def args (p q : Path) (d e : Path) : Kind → Option (List Path)
  | .vis => some [file .vis d p]
  | .layout => some [file .layout e q]
  | _ => none

example : (fhdFilenames (args "106".toList "106".toList "run".toList "run".toList)).names = ["106_vis.sav".toList, "106_layout.sav".toList] := by
  decide +kernel

theorem args_given {p q d e f : Path} {k : Kind} (h : Given (args p q d e) k f) : (k = .vis ∧ f = file .vis d p) ∨ (k = .layout ∧ f = file .layout e q) := by
  obtain ⟨l, hl, hf⟩ := h
  cases k <;> simp only [args, Option.some.injEq, reduceCtorEq] at hl
  · subst hl; exact .inl ⟨rfl, by simpa using hf⟩
  · subst hl; exact .inr ⟨rfl, by simpa using hf⟩

example := one_run_partial (args := args "106".toList "106".toList "run".toList "run".toList) (d := "run".toList) (p := "106".toList)
  (fun k f h => by
    rcases args_given h with ⟨rfl, rfl⟩ | ⟨rfl, rfl⟩ <;> exact file_is _ (by decide) (by decide) (by decide))
  (fun k f h => by rcases args_given h with ⟨rfl, rfl⟩ | ⟨rfl, rfl⟩ <;> decide)

example := two_runs (args := args "106".toList "106".toList "run".toList "old".toList) (k := .vis) (l := .layout) ⟨_, rfl, List.mem_cons_self⟩
  ⟨_, rfl, List.mem_cons_self⟩ (file_is .vis (d := "run".toList) (p := "106".toList) (by decide) (by decide) (by decide))
  (file_is .layout (d := "old".toList) (p := "106".toList) (by decide) (by decide) (by decide)) (by decide)

example := two_data_partial (args := args "106".toList "107".toList "run".toList "run".toList) (k := .vis) (l := .layout) ⟨_, rfl, List.mem_cons_self⟩
  ⟨_, rfl, List.mem_cons_self⟩ (file_is .vis (d := "run".toList) (p := "106".toList) (by decide) (by decide) (by decide))
  (file_is .layout (d := "run".toList) (p := "107".toList) (by decide) (by decide) (by decide)) (by decide) (by decide) (by decide)

example := same_data_counterexample (args := args "m_vis1".toList "m_vis1".toList "run".toList "run".toList) (k := .vis) (l := .layout)
  ⟨_, rfl, List.mem_cons_self⟩ ⟨_, rfl, List.mem_cons_self⟩ (file_is .vis (d := "run".toList) (p := "m_vis1".toList) (by decide) (by decide) (by decide))
  (file_is .layout (d := "run".toList) (p := "m_vis1".toList) (by decide) (by decide) (by decide)) (by decide) (by decide)

example := missing_sub (args := fun k => if k = .obs then some ["run/vis_data/106_obs.sav".toList] else none) (k := .obs) (d := "run".toList)
  (s := "vis_data".toList) (n := "106_obs.sav".toList) ⟨_, rfl, by decide⟩ (by decide) (by decide) (by decide) (by decide)

end Verif.FhdNames
