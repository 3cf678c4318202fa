import Verif.MirMask.Props

/-! # Stored masks of MIR objects: cases that meet the hypotheses -/

namespace Verif.MirMask

def two : Obj := ⟨[("in_data", [true, false]), ("sp_data", [true, true, false])], []⟩
def after : Obj := ⟨two.tables, [("a", two.tables)]⟩

/-- An update that leaves out all rows. -/
def noRows (t : Tables) : Tables := t.map fun e => (e.1, e.2.map fun _ => false)

theorem none_names : KeepsNames noRows := fun t => by simp [noRows]

def ops : List Op := [.change fun _ => [false], .save "b" false, .save "a" false, .restore "b" true]

example : save two "a" false = .ok after := rfl
example := restored_partial none_names (by decide) (o := two) (name := "a") (w := false) (o' := after) rfl ops
  (by intro op h; simp only [ops, List.mem_cons, List.not_mem_nil, or_false] at h; rcases h with rfl | rfl | rfl | rfl <;> simp [Keeps])
example : save after "a" false = .error .exists_ := (save_spec false).1.2 ⟨⟨_, rfl⟩, rfl⟩
example : ∃ e, restore id after "c" true = .error e := restore_unknown true rfl
/-- A file with other numbers of rows. -/
example : ∃ r, restore id (read after [("in_data", [true]), ("sp_data", [])] false) "a" false = .ok r ∧ r.tables = two.tables :=
  read_counterexample (by decide) (o := two) (w := false) rfl (by decide) (Or.inr (by decide))
example : (read ⟨[("ac_data", [true])], [("a", [])]⟩ [] false).stored = [] := read_clears [] (by simp)

end Verif.MirMask
