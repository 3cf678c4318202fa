import Verif.MirShift.Model
import Mathlib.Tactic.Linarith
import Mathlib.Tactic.Ring
import Mathlib.Tactic.FieldSimp
import Mathlib.Tactic.NormNum
import Mathlib.Tactic.Push

/-!
# Shifts by whole channels, and how a shift is split
-/

namespace Verif.MirShift

theorem pySlice_length {α : Type} (a b : Option Int) (l : List α) :
    (pySlice a b l).length = min ((b.map (pyIdx l.length)).getD l.length) l.length - (a.map (pyIdx l.length)).getD 0 := by
  simp [pySlice]

theorem pySlice_get {α : Type} (a b : Option Int) (l : List α) (i : Nat) :
    (pySlice a b l)[i]? = if (a.map (pyIdx l.length)).getD 0 + i < (b.map (pyIdx l.length)).getD l.length then
      l[(a.map (pyIdx l.length)).getD 0 + i]? else none := by
  simp only [pySlice, List.getElem?_drop, List.getElem?_take]

section
variable {K V : Type} [Field K] [AddCommGroup V] [Module K V]

/-- Channel at a position that may be outside. -/
def at? {α : Type} (l : List α) (p : Int) : Option α := if 0 ≤ p then l[p.toNat]? else none

omit [Module K V] in
theorem shiftWhole_get (c : Int) (h0 : c ≠ 0) (l : List (Chan V K)) (k : Nat) (hk : k < l.length) :
    (shiftWhole c l)[k]? = some ((at? l (k - c)).getD blank) := by
  unfold shiftWhole at?
  split
  · rename_i hc
    rw [List.getElem?_append]
    simp only [pySlice_length, pySlice_get, Option.map_some, Option.map_none, Option.getD_some, Option.getD_none, pyIdx,
      List.getElem?_replicate]
    have h1 : ¬ (-c < 0) := by omega
    simp only [h1, hc, if_true, if_false]
    have h2 : (0 : Int) ≤ k - c := by omega
    simp only [h2, if_true]
    by_cases h3 : k - c < l.length
    · have h4 : min (-c).toNat l.length + k = ((k : Int) - c).toNat := by omega
      have h5 : k < min l.length l.length - min (-c).toNat l.length := by omega
      have h6 : ((k : Int) - c).toNat < l.length := by omega
      rw [if_pos h5, h4, if_pos h6, List.getElem?_eq_getElem h6]; rfl
    · have h5 : ¬ k < min l.length l.length - min (-c).toNat l.length := by omega
      have h6 : l.length ≤ ((k : Int) - c).toNat := by omega
      rw [if_neg h5, List.getElem?_eq_none h6, if_pos (by omega)]; rfl
  · rename_i hc
    rw [List.getElem?_append]
    simp only [pySlice_length, pySlice_get, Option.map_some, Option.map_none, Option.getD_some, Option.getD_none, pyIdx,
      List.getElem?_replicate, List.length_replicate]
    have h1 : -c < 0 := by omega
    simp only [hc, h1, if_true, if_false]
    by_cases h2 : (0 : Int) ≤ k - c
    · have h4 : ((k : Int) - c).toNat < l.length := by omega
      have h5 : ¬ k < min (min c.toNat l.length) l.length - 0 := by omega
      have h6 : 0 + (k - (min (min c.toNat l.length) l.length - 0)) = ((k : Int) - c).toNat := by omega
      rw [if_neg h5, if_pos h2, h6, if_pos (by omega), List.getElem?_eq_getElem h4]; rfl
    · have h5 : k < min (min c.toNat l.length) l.length - 0 := by omega
      rw [if_pos h5, if_pos h5, if_neg h2]; rfl

omit [Module K V] in
theorem shiftWhole_length (c : Int) (h0 : c ≠ 0) (l : List (Chan V K)) : (shiftWhole c l).length = l.length := by
  unfold shiftWhole
  split
  · rename_i hc
    simp only [List.length_append, pySlice_length, List.length_replicate, Option.map_some, Option.map_none, Option.getD_some,
      Option.getD_none, pyIdx]
    have h1 : ¬ (-c < 0) := by omega
    simp only [h1, hc, if_true, if_false]
    omega
  · rename_i hc
    simp only [List.length_append, pySlice_length, List.length_replicate, Option.map_some, Option.map_none, Option.getD_some,
      Option.getD_none, pyIdx]
    have h1 : -c < 0 := by omega
    simp only [hc, h1, if_true, if_false]
    omega

/-- A shift by whole channels moves every channel with its data, flag and weight by that number; channels with nothing to take are zero and flagged. -/
theorem whole_moves (c : Int) (adj : Bool) (l : List (Chan V K)) :
    ∃ out, shift (c, none) adj l = some out ∧ out.length = l.length ∧
      ∀ k < l.length, out[k]? = some ((at? l ((k : Int) - c)).getD ⟨0, true, 0⟩) := by
  unfold shift
  dsimp only
  split
  · rename_i h; subst h
    refine ⟨l, rfl, rfl, fun k hk => ?_⟩
    simp [at?, List.getElem?_eq_getElem hk]
  · rename_i h
    exact ⟨_, rfl, shiftWhole_length c h l, fun k hk => shiftWhole_get c h l k hk⟩

end

section
variable {K : Type} [Field K] [LinearOrder K] [IsStrictOrderedRing K] [FloorRing K]

omit [IsStrictOrderedRing K] in
/-- Refused exactly for a tolerance outside 0 to 1/2. -/
theorem kernel_refused (s a tol : K) (kind : Kind) : genKernel s kind a tol = none ↔ tol < 0 ∨ 1 / 2 < tol := by
  unfold genKernel
  split
  · rename_i h
    simp only [true_iff]; exact h
  · rename_i h
    simp only [h, iff_false]
    generalize parts s tol = q
    obtain ⟨c, f⟩ := q
    dsimp only
    split
    · simp
    · cases kind <;> simp

/-- The part of the shift after the tolerance differs from the shift by at most the tolerance, and its fraction is 0 or between the tolerance and 1 less it. -/
theorem parts_near (s tol : K) (h0 : 0 ≤ tol) (h1 : tol ≤ 1 / 2) :
    |((parts s tol).1 : K) + (parts s tol).2 - s| ≤ tol ∧
      ((parts s tol).2 = 0 ∨ (((parts s tol).1 : K) + (parts s tol).2 = s ∧ tol ≤ (parts s tol).2 ∧ (parts s tol).2 ≤ 1 - tol)) := by
  have hf0 : 0 ≤ s - (⌊s⌋ : K) := sub_nonneg.2 (Int.floor_le s)
  have hf1 : s - (⌊s⌋ : K) < 1 := by have := Int.lt_floor_add_one s; linarith
  unfold parts
  simp only
  split
  · rename_i h
    refine ⟨?_, Or.inl rfl⟩
    simp only
    split
    · rename_i h2
      push_cast
      have : 1 - tol < s - (⌊s⌋ : K) := by
        rcases h with h | h
        · linarith
        · exact h
      rw [abs_le]; constructor <;> linarith
    · rename_i h2
      rw [abs_le]; constructor <;> linarith
  · rename_i h
    push Not at h
    refine ⟨by simp [h0], Or.inr ⟨by simp, h.1, h.2⟩⟩

/-- A shift without a kernel is by whole channels: for the nearest kernel at most half a channel and the tolerance from the one asked, and for the
other kernels only within the tolerance. -/
theorem whole_near (s a tol : K) (kind : Kind) (c : Int) (h : genKernel s kind a tol = some (c, none)) :
    |(c : K) - s| ≤ 1 / 2 ∧ (kind ≠ .nearest → |(c : K) - s| ≤ tol) := by
  unfold genKernel at h
  split at h
  · cases h
  · rename_i ht
    push Not at ht
    obtain ⟨hn, hp⟩ := parts_near s tol ht.1 ht.2
    generalize hq : parts s tol = q at *
    obtain ⟨c', f⟩ := q
    simp only at h hn hp
    split at h
    · rename_i hk
      simp only [Option.some.injEq, Prod.mk.injEq, and_true] at h
      by_cases hf : f = 0
      · subst hf
        rw [if_neg (by norm_num)] at h
        subst h
        simp only [add_zero] at hn
        exact ⟨hn.trans ht.2, fun _ => hn⟩
      · rcases hp with hp | ⟨hp, hp1, hp2⟩
        · exact absurd hp hf
        · refine ⟨?_, fun hk' => absurd (hk.resolve_right hf) hk'⟩
          rw [← hp, ← h]
          split
          · push_cast; rw [abs_le]; constructor <;> linarith
          · rw [abs_le]; constructor <;> linarith
    · cases kind <;> simp at h

/-- Shifts by whole numbers of channels are done exactly, with any kernel and tolerance. -/
theorem whole_exact (m : Int) (a tol : K) (kind : Kind) (h0 : 0 ≤ tol) (h1 : tol ≤ 1 / 2) :
    genKernel (m : K) kind a tol = some (m, none) := by
  have hp : parts (m : K) tol = (m, 0) := by
    unfold parts
    simp only [Int.floor_intCast, sub_self]
    split
    · simp [not_lt.2 h0]
    · rfl
  unfold genKernel
  rw [if_neg (by push Not; exact ⟨h0, h1⟩), hp]
  simp

/-- A kernel is only used for a shift with a fraction, and the split of the shift is exact. -/
theorem kernel_parts (s a tol : K) (kind : Kind) (c : Int) (kern : List K) (h : genKernel s kind a tol = some (c, some kern)) :
    ∃ f : K, s = c + f ∧ 0 < f ∧ f < 1 ∧ ((kind = .linear ∧ kern = [1 - f, f]) ∨ (kind = .cubic ∧ kern = cubicKernel a f)) := by
  unfold genKernel at h
  split at h
  · cases h
  · rename_i ht
    push Not at ht
    obtain ⟨hn, hp⟩ := parts_near s tol ht.1 ht.2
    have hf1 : (parts s tol).2 < 1 := by
      unfold parts; simp only
      split
      · simp
      · have := Int.lt_floor_add_one s; simp only; linarith
    generalize hq : parts s tol = q at *
    obtain ⟨c', f⟩ := q
    simp only at h hn hp hf1
    split at h
    · simp at h
    · rename_i hk
      push Not at hk
      rcases hp with hp | ⟨hp, hp1, hp2⟩
      · exact absurd hp hk.2
      · have hf0 : 0 < f := lt_of_le_of_ne (ht.1.trans hp1) (Ne.symm hk.2)
        cases kind <;> simp at h hk
        · obtain ⟨rfl, rfl⟩ := h
          exact ⟨f, hp.symm, hf0, hf1, Or.inl ⟨rfl, rfl⟩⟩
        · obtain ⟨rfl, rfl⟩ := h
          exact ⟨f, hp.symm, hf0, hf1, Or.inr ⟨rfl, rfl⟩⟩

end

end Verif.MirShift
