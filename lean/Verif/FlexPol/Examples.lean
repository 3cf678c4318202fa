import Verif.FlexPol.Remove
import Verif.FreqSort.Examples
import Mathlib.Algebra.Order.Ring.Rat

/-! Concrete cases, and the case in which the round trip fails. -/
namespace Verif.FlexPol
open Verif.Np Verif.FreqSort

/-- A number that is not in use. -/
def next (l : List Int) : Int := l.foldr max 0 + 1

theorem next_fresh (l : List Int) : next l ∉ l := by
  have h : ∀ x ∈ l, x ≤ l.foldr max 0 := by
    induction l with
    | nil => simp
    | cons a l ih =>
      intro x hx
      simp only [List.foldr_cons]
      rcases List.mem_cons.1 hx with rfl | hx
      · exact le_max_left _ _
      · exact le_trans (ih x hx) (le_max_right _ _)
  intro hm
  have := h _ hm
  unfold next at this
  omega

/-- Two windows, the channels of the first not contiguous, two polarizations. -/
def sample : Obj ℚ Nat :=
  { nblts := 2, spws := [5, 1], flexId := [5, 1, 5], freq := [10, 20, 12], width := [1, 2, 1], pols := [-5, -6], flexPol := none,
    data := fun b f p => 100 * b + 10 * f + p }

theorem sample_valid : Valid sample :=
  ⟨by decide, by decide, by decide, fun s => by simp [sample]; tauto, rfl, rfl⟩

theorem sample_different : Different sample := by
  intro s hs t ht h
  have hl := h.length_eq
  simp only [sample, List.mem_cons, List.not_mem_nil, or_false] at hs ht
  rcases hs with rfl | rfl <;> rcases ht with rfl | rfl <;> first | rfl | exact absurd hl (by decide +kernel)

example : ∃ r, convert next sample = some r ∧ r.flexId = [5, 1, 5, 6, 7, 6] ∧ r.spws = [1, 5, 6, 7] ∧ r.flexPol = some [-5, -5, -6, -6] :=
  ⟨_, rfl, by decide +kernel, by decide +kernel, by decide +kernel⟩

/-- The hypotheses of the round trip hold for the sample. -/
example : ∃ r x, convert next sample = some r ∧ remove (stable ℚ) (reorderFlex (stable Int) (stable ℚ)) 0 true r = some x ∧ SameData sample x :=
  roundtrip_partial _ _ _ _ next_fresh _ sample_valid rfl (by decide) (fun _ => sample_different)

/-- Two windows with the same frequencies and widths. -/
def twin : Obj ℚ Nat := { sample with flexId := [5, 1], freq := [10, 10], width := [1, 1] }

theorem twin_valid : Valid twin := ⟨by decide, by decide, by decide, fun s => by simp [twin, sample], rfl, rfl⟩

/-- **The round trip is not always possible**: two windows with the same channels cannot be combined again. -/
theorem roundtrip_counterexample : Valid twin ∧ twin.flexPol = none ∧
    ∃ r, convert next twin = some r ∧ remove (stable ℚ) (reorderFlex (stable Int) (stable ℚ)) 0 true r = none :=
  ⟨twin_valid, rfl, roundtrip_fails _ _ _ _ next_fresh twin twin_valid rfl (by decide) 5 1 (by decide) (by decide) (by decide)
    (by decide +kernel) (by decide +kernel)⟩

/-- Three windows with polarizations of their own. -/
def flexed : Obj ℚ Nat :=
  { nblts := 1, spws := [1, 2, 3], flexId := [2, 1, 3, 1], freq := [10, 20, 12, 21], width := [1, 2, 1, 1], pols := [0],
    flexPol := some [-5, -7, -5], data := fun _ f _ => f + 1 }

theorem flexed_valid : ValidFlex flexed [-5, -7, -5] := ⟨by decide, rfl, rfl, rfl⟩

example : ∃ x, remove (stable ℚ) (reorderFlex (stable Int) (stable ℚ)) 0 false flexed = some x ∧ x.pols = [-7, -5] ∧
    (List.range 4).map (fun f => (x.data 0 f 0, x.data 0 f 1)) = [(1, 0), (0, 2), (0, 3), (0, 4)] :=
  ⟨_, rfl, by decide +kernel, by decide +kernel⟩

/-- Window 5 has data in the second polarization, window 1 in the first; zero means flagged. -/
def half : Obj ℚ Nat := { sample with data := fun b f p => if f = 1 then (if p = 0 then 7 + b else 0) else (if p = 1 then 10 + b + f else 0) }

theorem half_live {s : Int} {p : Nat} (h : Live (fun v : Nat => decide (v = 0)) half s p) : (s = 1 ∧ p = 0) ∨ (s = 5 ∧ p = 1) := by
  obtain ⟨hp, b, hb, f, hf, hs, hv⟩ := h
  simp only [half, sample, List.length_cons, List.length_nil] at hp hb hf hs hv
  have : f = 0 ∨ f = 1 ∨ f = 2 := by omega
  have : p = 0 ∨ p = 1 := by omega
  rcases ‹f = 0 ∨ f = 1 ∨ f = 2› with rfl | rfl | rfl <;> rcases ‹p = 0 ∨ p = 1› with rfl | rfl <;> simp_all

theorem half_oneEach : OneEach (fun v : Nat => decide (v = 0)) half := by
  intro s _ p q hp hq
  rcases half_live hp with ⟨h1, h2⟩ | ⟨h1, h2⟩ <;> rcases half_live hq with ⟨h3, h4⟩ | ⟨h3, h4⟩ <;> omega

theorem half_valid : Valid half := ⟨sample_valid.spws, sample_valid.pols, sample_valid.some_pol, sample_valid.ids, rfl, rfl⟩

example := makeFlex_roundtrip (fun v : Nat => decide (v = 0)) 0 rfl (stable ℚ) (reorderFlex (stable Int) (stable ℚ)) half half_valid rfl half_oneEach

example : (makeFlex (fun v : Nat => decide (v = 0)) 0 half).flexPol = some [-6, -5] := by decide +kernel

/-- Two sets of windows in two polarizations, polarizations not in blocks, channels of one window in the opposite order. -/
def mixed : Obj ℚ Nat :=
  { nblts := 2, spws := [1, 2, 3, 4], flexId := [1, 1, 2, 2, 3, 4], freq := [10, 12, 12, 10, 20, 20], width := [1, 2, 2, 1, 1, 1], pols := [0],
    flexPol := some [-5, -6, -5, -6], data := fun b f _ => 10 * b + f }

theorem mixed_good : Good mixed [-5, -6, -5, -6] :=
  ⟨⟨by decide, rfl, rfl, rfl⟩, fun s => by simp only [mixed, List.mem_cons, List.not_mem_nil, or_false]; tauto, rfl, rfl, by simp [mixed]⟩

theorem mixed_distinct : DistinctFreqs mixed := by
  intro f g s hf hg he
  have hlt : ∀ {i : Nat}, mixed.flexId[i]? = some s → i < 6 := by
    intro i hi
    by_contra hc
    rw [List.getElem?_eq_none (by simp [mixed]; omega)] at hi
    simp at hi
  have h1 := hlt hf
  have h2 := hlt hg
  have key : ∀ i < 6, ∀ j < 6, mixed.flexId[i]? = mixed.flexId[j]? → mixed.freq[i]? = mixed.freq[j]? → i = j := by decide +kernel
  exact key f h1 g h2 (hf.trans hg.symm) he

theorem mixed_noConflict : NoConflict mixed := (noConflict_iff (stable ℚ) mixed_good mixed_distinct).2 (by decide +kernel)

theorem mixed_matched : Matched mixed := (matched_iff (stable ℚ) mixed_good mixed_distinct mixed_noConflict).2 (by decide +kernel)

example := remove_combines (stable Int) (stable ℚ) (0 : Nat) mixed _ mixed_good mixed_distinct mixed_noConflict mixed_matched

example : ∃ x, remove (stable ℚ) (reorderFlex (stable Int) (stable ℚ)) 0 true mixed = some x ∧ x.freq = [10, 12, 20] ∧ x.pols = [-5, -6] ∧
    x.flexId = [1, 1, 3] ∧ (List.range 3).map (fun f => (x.data 1 f 0, x.data 1 f 1)) = [(10, 13), (11, 12), (14, 15)] :=
  ⟨_, rfl, by decide +kernel, by decide +kernel, by decide +kernel, by decide +kernel⟩

/-- Without the last window there is no match for window 3. -/
def unmatched : Obj ℚ Nat := { mixed with spws := [1, 2, 3], flexId := [1, 1, 2, 2, 3, 3], freq := [10, 12, 12, 10, 20, 21], flexPol := some [-5, -6, -5] }

theorem unmatched_good : Good unmatched [-5, -6, -5] :=
  ⟨⟨by decide, rfl, rfl, rfl⟩, fun s => by simp only [unmatched, List.mem_cons, List.not_mem_nil, or_false]; tauto, rfl, rfl, by simp [unmatched]⟩

theorem unmatched_distinct : DistinctFreqs unmatched := by
  intro f g s hf hg he
  have hlt : ∀ {i : Nat}, unmatched.flexId[i]? = some s → i < 6 := by
    intro i hi
    by_contra hc
    rw [List.getElem?_eq_none (by simp [unmatched]; omega)] at hi
    simp at hi
  have h1 := hlt hf
  have h2 := hlt hg
  have key : ∀ i < 6, ∀ j < 6, unmatched.flexId[i]? = unmatched.flexId[j]? → unmatched.freq[i]? = unmatched.freq[j]? → i = j := by decide +kernel
  exact key f h1 g h2 (hf.trans hg.symm) he

example : remove (stable ℚ) (reorderFlex (stable Int) (stable ℚ)) 0 true unmatched =
    remove (stable ℚ) (reorderFlex (stable Int) (stable ℚ)) 0 false unmatched :=
  have hc : NoConflict unmatched := (noConflict_iff (stable ℚ) unmatched_good unmatched_distinct).2 (by decide +kernel)
  remove_unmatched (stable Int) (stable ℚ) 0 unmatched _ unmatched_good unmatched_distinct hc
    (fun h => absurd ((matched_iff (stable ℚ) unmatched_good unmatched_distinct hc).1 h) (by decide +kernel))

/-- Windows 1 and 2 clash once they have one polarization. -/
def clash : Obj ℚ Nat := { mixed with flexPol := some [-5, -5, -5, -6] }

theorem clash_good : Good clash [-5, -5, -5, -6] :=
  ⟨⟨by decide, rfl, rfl, rfl⟩, fun s => by simp only [clash, mixed, List.mem_cons, List.not_mem_nil, or_false]; tauto, rfl, rfl, by simp [clash, mixed]⟩

example : remove (stable ℚ) (reorderFlex (stable Int) (stable ℚ)) 0 true clash = none :=
  remove_conflict (stable Int) (stable ℚ) 0 clash _ clash_good mixed_distinct
    (fun h => absurd ((noConflict_iff (stable ℚ) clash_good mixed_distinct).1 h) (by decide +kernel)) ⟨-5, by decide, -6, by decide, by decide⟩

end Verif.FlexPol
