import Verif.Concat.Props
import Verif.Concat.Cat

/-! Concrete cases and counterexamples for C33. -/
namespace Verif.Concat

/-- Exact comparison of numbers. -/
def exact : Close Int := ⟨fun a b => a == b, fun a b => a == b, fun a b => a == b, fun a b => a == b, fun a b => a == b⟩

/-- Two rows, two channels, one polarization. -/
def first : Obj Int Int where
  ant1 := [0, 0]
  ant2 := [1, 2]
  bl := [10, 11]
  time := [5, 5]
  lst := [1, 1]
  integ := [2, 2]
  uvw := [(0, 1, 2), (3, 4, 5)]
  pc := [0, 0]
  freq := [100, 101]
  width := [1, 1]
  spwId := [0, 0]
  spws := [0]
  flexPol := none
  pol := [-5]
  data := [[[1], [2]], [[3], [4]]]
  flag := [[[false], [true]], [[false], [false]]]
  nsample := [[[1], [1]], [[1], [1]]]
  nBlts := 2
  nBls := 2
  nTimes := 1
  nAnts := 3
  nFreqs := 2
  nSpws := 1
  nPols := 1

/-- The same rows, other channels in a new window. -/
def second : Obj Int Int :=
  { first with freq := [300, 301], spwId := [4, 4], spws := [4], data := [[[5], [6]], [[7], [8]]] }

/-- The same rows and channels, another polarization. -/
def third : Obj Int Int := { first with pol := [-6], data := [[[5], [6]], [[7], [8]]] }

theorem shape_of {α : Type} {n m k : Nat} {a : List (List (List α))}
    (h : (decide (a.length = n) && a.all (fun b => decide (b.length = m) && b.all (fun c => decide (c.length = k)))) = true) : Shape n m k a := by
  simp only [Bool.and_eq_true, decide_eq_true_eq, List.all_eq_true] at h
  exact h

theorem valid_first : Valid first :=
  ⟨rfl, rfl, rfl, rfl, rfl, rfl, rfl, rfl, rfl, rfl, rfl, rfl, shape_of (by decide), shape_of (by decide), shape_of (by decide)⟩
theorem valid_second : Valid second :=
  ⟨rfl, rfl, rfl, rfl, rfl, rfl, rfl, rfl, rfl, rfl, rfl, rfl, shape_of (by decide), shape_of (by decide), shape_of (by decide)⟩
theorem valid_third : Valid third :=
  ⟨rfl, rfl, rfl, rfl, rfl, rfl, rfl, rfl, rfl, rfl, rfl, rfl, shape_of (by decide), shape_of (by decide), shape_of (by decide)⟩

example : ∃ res, fastConcat exact .freq first [second, first] = some res ∧ Blocks2 [first.data, second.data, first.data] res.data ∧
    res.spws = [0, 4] ∧ res.data = [[[1], [2], [5], [6], [1], [2]], [[3], [4], [7], [8], [3], [4]]] := by
  obtain ⟨res, h⟩ := (concat_accepts_partial (c := exact) first [second, first]).2.1.2 (by
    intro o ho
    simp only [List.mem_cons, List.not_mem_nil, or_false] at ho
    rcases ho with rfl | rfl <;>
      exact ⟨rfl, rfl, rfl, (near_iff _ _ _).1 (by decide), (near_iff _ _ _).1 (by decide), (near_iff _ _ _).1 (by decide), rfl⟩)
  have hb := concat_freq valid_first (by
    intro o ho
    simp only [List.mem_cons, List.not_mem_nil, or_false] at ho
    rcases ho with rfl | rfl
    · exact valid_second
    · exact valid_first) h
  refine ⟨res, h, hb.1.2.2.2.1, ?_, ?_⟩ <;> (rw [result h]; decide)

example : ∃ res, fastConcat exact .pol first [third] = some res ∧ res.nPols = 2 ∧ Blocks3 [first.data, third.data] res.data ∧
    res.data = [[[1, 5], [2, 6]], [[3, 7], [4, 8]]] := by
  obtain ⟨res, h⟩ := (concat_accepts_partial (c := exact) first [third]).2.2.2 (by
    intro o ho
    simp only [List.mem_cons, List.not_mem_nil, or_false] at ho
    subst ho
    exact ⟨(near_iff _ _ _).1 (by decide), (near_iff _ _ _).1 (by decide), rfl, rfl, rfl, (near_iff _ _ _).1 (by decide),
      (near_iff _ _ _).1 (by decide), (near_iff _ _ _).1 (by decide), rfl⟩)
  have hb := concat_pol valid_first (by
    intro o ho
    simp only [List.mem_cons, List.not_mem_nil, or_false] at ho
    subst ho
    exact valid_third) h
  refine ⟨res, h, ?_, hb.1.2.1, ?_⟩ <;> (rw [result h]; decide)

example : ∃ res, fastConcat exact .blt first [first] = some res ∧ BlocksOf first [first] Obj.time res.time ∧ res.nBlts = 4 ∧ res.nTimes = 1 := by
  obtain ⟨res, h⟩ := (concat_accepts_partial (c := exact) first [first]).1.2 (by
    intro o ho
    simp only [List.mem_cons, List.not_mem_nil, or_false] at ho
    subst ho
    exact ⟨(near_iff _ _ _).1 (by decide), rfl, rfl⟩)
  have hb := concat_blt valid_first (by
    intro o ho
    simp only [List.mem_cons, List.not_mem_nil, or_false] at ho
    subst ho
    exact valid_first) h
  refine ⟨res, h, hb.1.2.2.2.1, ?_, ?_⟩ <;> (rw [result h]; decide)

/-- Incompatible inputs are refused: other channels along baseline-time. -/
example : fastConcat exact .blt first [second] = none := by decide

/-! ### Counterexamples -/

/-- Other channels, observed at another time. -/
def later : Obj Int Int := { second with time := [99, 99] }

/-- Along frequency, objects of different times are accepted; the result says that all data were taken at the first object's
times. -/
theorem concat_times_counterexample : Valid first ∧ Valid later ∧ first.time ≠ later.time ∧
    ∃ res, fastConcat exact .freq first [later] = some res ∧ res.time = first.time := by
  refine ⟨valid_first, ?_, by decide, combine .freq first [later], ?_, rfl⟩
  · exact ⟨rfl, rfl, rfl, rfl, rfl, rfl, rfl, rfl, rfl, rfl, rfl, rfl, shape_of (by decide), shape_of (by decide), shape_of (by decide)⟩
  · unfold fastConcat
    rw [if_pos (by decide)]

/-- One window, polarization -5, and one window, polarization -6. -/
def flexX : Obj Int Int := { first with pol := [0], flexPol := some [-5] }
def flexY : Obj Int Int := { first with pol := [0], flexPol := some [-6] }

/-- Along baseline-time, objects of different polarizations are accepted if their windows carry the polarizations; the result
says that all data have the first object's polarization. -/
theorem concat_flex_counterexample : Valid flexX ∧ Valid flexY ∧ flexX.flexPol ≠ flexY.flexPol ∧
    ∃ res, fastConcat exact .blt flexX [flexY] = some res ∧ res.flexPol = flexX.flexPol ∧ res.nBlts = 4 := by
  refine ⟨?_, ?_, by decide, combine .blt flexX [flexY], ?_, rfl, rfl⟩
  · exact ⟨rfl, rfl, rfl, rfl, rfl, rfl, rfl, rfl, rfl, rfl, rfl, rfl, shape_of (by decide), shape_of (by decide), shape_of (by decide)⟩
  · exact ⟨rfl, rfl, rfl, rfl, rfl, rfl, rfl, rfl, rfl, rfl, rfl, rfl, shape_of (by decide), shape_of (by decide), shape_of (by decide)⟩
  · unfold fastConcat
    rw [if_pos (by decide)]

end Verif.Concat
