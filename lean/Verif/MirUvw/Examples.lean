import Verif.MirUvw.Props
import Mathlib.Data.Rat.Defs
import Mathlib.Algebra.Order.Ring.Rat

/-! # Baseline coordinates of old MIR files: cases that meet the hypotheses -/

namespace Verif.MirUvw

/-- The length of vectors along `u`. -/
def along (u _ _ : ℚ) : ℚ := |u|

theorem along_homogeneous : Homogeneous along := fun c u _ _ hc => by simp [along, abs_mul, abs_of_pos hc]

/-- Coordinates in thousandths; the antennas of the last baseline are not where they are thought to be. -/
def rows0 : List (Row ℚ) := [⟨0, 1, 3000, 0, 0, 3⟩, ⟨0, 1, -5000, 0, 0, 5⟩, ⟨0, 1, 2000, 0, 0, 4⟩, ⟨0, 0, 7, 0, 0, 7⟩]

def seen (o : Option (List (Cell ℚ))) : Option (List (Option ℚ)) := o.map fun l => l.map Cell.u

example : seen (convert along rows0) = some [some 3, some (-5), some 2, some 7] := by decide +kernel

theorem most0 : Most rows0 0 1 (Times along 1000) :=
  ⟨rows0.take 2, List.take_sublist _ _, by
    intro r hr
    simp only [rows0, List.take_succ_cons, List.take_zero, List.mem_cons, List.not_mem_nil, or_false] at hr
    rcases hr with rfl | rfl
    · exact ⟨rfl, rfl, by norm_num, 3, 0, 0, by norm_num [along], by norm_num, by norm_num, by norm_num⟩
    · exact ⟨rfl, rfl, by norm_num, -5, 0, 0, by norm_num [along], by norm_num, by norm_num, by norm_num⟩, by decide⟩

theorem nonzero0 : ∀ x ∈ rows0, x.rx = 0 → x.sb = 1 → along x.u x.v x.w ≠ 0 := by decide +kernel

example {out} (h : convert along rows0 = some out) := meters_partial along_homogeneous h (i := 1) (r := ⟨0, 1, -5000, 0, 0, 5⟩) rfl
  (c := 1000) (u := -5) (v := 0) (w := 0) (by norm_num) nonzero0 most0 (by norm_num) (by norm_num) (by norm_num)
example {out} (h : convert along rows0 = some out) := meters_kept along_homogeneous h (i := 3) (r := ⟨0, 0, 7, 0, 0, 7⟩) rfl
  (by decide +kernel)
  ⟨[⟨0, 0, 7, 0, 0, 7⟩], by simp [rows0], by
    intro r hr
    simp only [List.mem_cons, List.not_mem_nil, or_false] at hr
    subst hr
    exact ⟨rfl, rfl, by norm_num, 7, 0, 0, by norm_num [along], by norm_num, by norm_num, by norm_num⟩, by decide⟩
example : convert along [⟨2, 0, 1, 0, 0, 1⟩] = none := convert_error.2 ⟨_, List.mem_singleton_self _, Or.inr (by decide)⟩
/-- A baseline of zero length. -/
example : seen (convert along (⟨0, 1, 0, 0, 0, 0⟩ :: rows0)) = some [none, none, none, none, some 7] := by decide +kernel
example {out} (h : convert along (⟨0, 1, 0, 0, 0, 0⟩ :: rows0) = some out) :=
  zero_counterexample h (i := 1) (r := ⟨0, 1, 3000, 0, 0, 3⟩) (x := ⟨0, 1, 0, 0, 0, 0⟩) rfl (by simp) rfl rfl (by simp [along]) rfl

end Verif.MirUvw
