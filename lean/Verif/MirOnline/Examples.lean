import Verif.MirOnline.Props

/-!
# Concrete cases for C228 and C229
-/
namespace Verif.MirOnline

/-- Two records, one of them with one flag. -/
def sample : List (Int × Vis String) := [(5, ⟨"a", [false, true]⟩), (7, ⟨"b", [true, false]⟩)]

example : applyFlags [7, 5] [3, 0] (some sample) = (some [(5, ⟨"a", [false, true]⟩), (7, ⟨"b", [true, true]⟩)], none) := by decide +kernel
example := apply_marked (sphid := [7, 5]) (flags := [3, 0]) (d := sample)
  (v := some [(5, ⟨"a", [false, true]⟩), (7, ⟨"b", [true, true]⟩)]) (by decide +kernel)
example : (applyFlags [7, 5] [3, 0] (some sample)).2 = none :=
  (apply_returns _ _ _).mpr ⟨sample, rfl, by
    rintro k ⟨f, hf, hm⟩
    simp only [List.zip_cons_cons, List.zip_nil_right, List.mem_cons, Prod.mk.injEq, List.not_mem_nil, or_false] at hm
    rcases hm with ⟨rfl, _⟩ | ⟨_, rfl⟩
    · decide
    · exact absurd rfl hf⟩
example := apply_error (sphid := [5, 6, 7]) (flags := [1, 1, 1]) (d := sample)
  (v := some [(5, ⟨"a", [true, true]⟩), (7, ⟨"b", [true, false]⟩)]) (e := .key 6) (by decide +kernel)
example := apply_twice [5, 6, 7] [1, 1, 1] (some sample)

example : fillRx [0, 0, 0, 0] [0, 0, 0, 0] [1, 2, 3, 4] [0, 0, 0, 0] = ([1, 1, 0, 0], [1, 0, 1, 0]) := by decide
example := fill_pol (rx1 := [0, 0, 0, 0]) (rx2 := [0, 0, 0, 0]) (ipol := [1, 2, 3, 4]) (irec := [0, 0, 0, 0]) (.inl (by decide)) ⟨1, by decide, by decide⟩
example := fill_rec (rx1 := [0, 0]) (rx2 := [0, 0]) (ipol := [0, 0]) (irec := [1, 2]) (.inl (by decide)) (by decide)
example := fill_kept_partial (rx1 := [0, 1]) (rx2 := [1, 0]) (ipol := [0, 0]) (irec := [1, 1]) ⟨1, by decide, by decide⟩ ⟨1, by decide, by decide⟩
example := fill_counterexample (rx1 := [0, 1]) (rx2 := [0, 0]) (ipol := [0, 0]) (irec := [1, 1]) ⟨1, by decide, by decide⟩ (by decide) (by decide) (by decide)

end Verif.MirOnline
