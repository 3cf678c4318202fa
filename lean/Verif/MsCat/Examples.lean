import Verif.MsCat.Back
import Mathlib.Data.Rat.Defs
import Mathlib.Algebra.Order.Ring.Rat

/-! # Examples -/

namespace Verif.MsCat

def starEx : Entry ℚ := ⟨"star", .point 1 (1/2), "icrs", none, some 3, some (-2), some 10, some 5⟩

def sunEx : Entry ℚ := ⟨"sun", .path [(0, 1, 1), (10, 2, 1), (20, 3, 2)], "fk4", some 1950, none, none, none, none⟩

def catEx : Cat ℚ := [(7, starEx), (2, sunEx)]

theorem catEx_good : Good (1/1000) catEx := by
  refine ⟨by decide, by decide, ?_, ?_⟩
  · intro x hx
    simp only [catEx, List.mem_cons, List.not_mem_nil, or_false] at hx
    rcases hx with rfl | rfl
    · exact Or.inl ⟨by decide, by decide +kernel⟩
    · exact Or.inr ⟨rfl, Or.inl (by decide +kernel)⟩
  · intro x hx l hl
    simp only [catEx, List.mem_cons, List.not_mem_nil, or_false] at hx
    rcases hx with rfl | rfl
    · cases hl
    · cases hl
      decide +kernel

/-- The sum of a list stands for the median. -/
example : ∃ f c', write List.sum 5 catEx = .ok f ∧ read (1/1000) (1/100000000) f = .ok c' ∧ c'.map (fun x => x.1) = [7, 2] ∧
    ∀ e', (c'[1]?).map (fun x => x.2) = some e' → e'.place = .path [(0, 1, 1), (10, 2, 1), (20, 3, 2)] := by
  obtain ⟨f, c', h1, h2, h3, h4⟩ := cat_back List.sum 5 (1/1000) (1/100000000) (by decide +kernel) catEx_good
    (by decide +kernel) (by
      intro x hx l hl
      simp only [catEx, List.mem_cons, List.not_mem_nil, or_false] at hx
      rcases hx with rfl | rfl
      · cases hl
      · cases hl
        decide)
  exact ⟨f, c', h1, h2, h3, fun e' he => (h4 1 sunEx e' rfl he).2.1⟩

/-- The star moves in declination as in right ascension afterwards. -/
example : ∃ f e', write List.sum 5 [(7, starEx)] = .ok f ∧ read (1/1000) (1/100000000) f = .ok [(7, e')] ∧ e'.pmDec ≠ some (-2) :=
  pm_dec_counterexample List.sum 5 (1/1000) (1/100000000) (by decide +kernel) (by decide) (Or.inl ⟨by decide, by decide +kernel⟩) rfl
    (a := 3) (b := -2) rfl rfl (by decide +kernel)

example : ∃ x ∈ ([(7, starEx), (-2, sunEx)] : Cat ℚ), x.1 < 0 := ⟨_, List.mem_cons_of_mem _ (List.mem_cons_self ..), by decide⟩

/-- A sample that is close to two others cannot be read: the second position is not there any more. -/
theorem pop_counterexample : ∃ f, write List.sum 5 ([(2, { sunEx with place := .path [(0, 1, 1), (3/2, 2, 1), (3/4, 3, 2)] })] : Cat ℚ) = .ok f ∧
    (match read 1 (1/100000000) f with
      | .error e => some e
      | .ok _ => none) = some .index := by
  refine ⟨_, rfl, ?_⟩
  decide +kernel

end Verif.MsCat
