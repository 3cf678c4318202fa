import Verif.MirCat.Counter

/-! Concrete cases. -/

namespace Verif.MirCat

/-- Two integrations of a file, with two spectra and one. -/
def s1 : Obj Nat Nat Nat Int Nat := ⟨[1, 2], [(1, 1), (2, 1), (3, 2)], [(1, [(1, 0), (2, 8)]), (2, [(3, 0)])], [(70, [(1, 0), (2, 100)])], some [(1, 5), (3, 7)], 130, true⟩
/-- One integration of another file. -/
def o1 : Obj Nat Nat Nat Int Nat := ⟨[9], [(4, 9), (1, 9)], [(9, [(4, 0), (1, 16)])], [(71, [(9, 50)])], some [(4, -5)], 130, true⟩
/-- The same number as in the first file. -/
def o2 : Obj Nat Nat Nat Int Nat := ⟨[1], [(1, 1)], [(1, [(1, 16)])], [(71, [(1, 50)])], some [(1, -5)], 131, true⟩

theorem good_s1 : Good s1 := ⟨by decide, by decide, by decide, by
  intro p hp
  simp only [s1, List.mem_cons, List.not_mem_nil, or_false] at hp
  rcases hp with rfl | rfl
  · refine ⟨by decide, fun q hq => ?_⟩
    simp only [List.mem_cons, List.not_mem_nil, or_false] at hq
    rcases hq with rfl | rfl
    · exact ⟨1, by decide⟩
    · exact ⟨1, by decide⟩
  · refine ⟨by decide, fun q hq => ?_⟩
    simp only [List.mem_cons, List.not_mem_nil, or_false] at hq
    obtain rfl := hq
    exact ⟨2, by decide⟩, by decide, by
  rintro v hv q hq
  obtain rfl := Option.some.inj hv
  simp only [List.mem_cons, List.not_mem_nil, or_false] at hq
  rcases hq with rfl | rfl
  · exact ⟨1, by decide⟩
  · exact ⟨2, by decide⟩⟩

theorem good_o1 : Good o1 := ⟨by decide, by decide, by decide, by
  intro p hp
  simp only [o1, List.mem_cons, List.not_mem_nil, or_false] at hp
  obtain rfl := hp
  refine ⟨by decide, fun q hq => ?_⟩
  simp only [List.mem_cons, List.not_mem_nil, or_false] at hq
  rcases hq with rfl | rfl
  · exact ⟨9, by decide⟩
  · exact ⟨9, by decide⟩, by decide, by
  rintro v hv q hq
  obtain rfl := Option.some.inj hv
  simp only [List.mem_cons, List.not_mem_nil, or_false] at hq
  obtain rfl := hq
  exact ⟨9, by decide⟩⟩

theorem good_o2 : Good o2 := ⟨by decide, by decide, by decide, by
  intro p hp
  simp only [o2, List.mem_cons, List.not_mem_nil, or_false] at hp
  obtain rfl := hp
  refine ⟨by decide, fun q hq => ?_⟩
  simp only [List.mem_cons, List.not_mem_nil, or_false] at hq
  obtain rfl := hq
  exact ⟨1, by decide⟩, by decide, by
  rintro v hv q hq
  obtain rfl := Option.some.inj hv
  simp only [List.mem_cons, List.not_mem_nil, or_false] at hq
  obtain rfl := hq
  exact ⟨1, by decide⟩⟩

example := places_partial good_s1 good_o1 false (by decide +kernel)
example := keys_different good_s1 good_o2 true
example := loaded_partial good_s1 good_o1
example : (cat false s1 o1).spectra = [(1, 1), (2, 1), (3, 2), (4, 3), (5, 3)] := by decide +kernel
example : place (cat false s1 o1) (5, 3) = some (71, 50, 16) := by decide +kernel
example : (cat false s1 o1).vis = some [(1, 5), (3, 7), (4, -5)] := by decide +kernel
example : place (cat false s1 o2) (1, 1) = some (70, 0, 16) := (number_counterexample good_o2 false (f := 70) (r := 0) (p := 0) (q := 16) (by decide) (by decide +kernel) (by decide +kernel) (by decide)).1
example : place (cat false s1 o2) (2, 1) = none := missing_counterexample false (d := [(1, 16)]) (by decide +kernel) (by decide +kernel)
example := inplace_counterexample (s := s1) (o := o2) rfl rfl rfl (by decide)
example : ∃ e, add false false s1 o2 = .error e := (refused_iff false false s1 o2).2 (Or.inl ⟨by decide, rfl⟩)

end Verif.MirCat
