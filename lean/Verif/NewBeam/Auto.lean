import Mathlib.Algebra.Order.Group.Abs
import Mathlib.Tactic.Linarith
import Verif.NewBeam.Spec

/-! Auto polarizations of power beams are real. -/

namespace Verif.NewBeam

variable {K I : Type}

/-- The polarization at a position is not a cross polarization. -/
def Power.notCross (b : Power K I) (k : Nat) : Prop := ∃ p, b.pols[k]? = some p ∧ ¬ IsCross p

/-- Polarizations that exist. -/
def Power.valid (b : Power K I) : Prop := ∀ p ∈ b.pols, (-8 ≤ p ∧ p ≤ -1) ∨ (1 ≤ p ∧ p ≤ 4)

theorem isAuto_iff {p : Int} (h : (-8 ≤ p ∧ p ≤ -1) ∨ (1 ≤ p ∧ p ≤ 4)) : isAuto p = true ↔ ¬ IsCross p := by
  simp only [isAuto, IsCross, decide_eq_true_eq, List.mem_cons, List.not_mem_nil, or_false]
  omega

theorem auto_iff {b : Power K I} (hv : b.valid) (k : Nat) : b.auto k = true ↔ b.notCross k := by
  unfold Power.auto Power.notCross
  cases h : b.pols[k]? with
  | none => simp
  | some p => simp [isAuto_iff (hv p (List.mem_of_getElem? h))]

section
variable [Zero K] [DecidableEq K]

theorem found_iff {b : Power K I} (hv : b.valid) (pix : List I) :
    (List.range b.pols.length).any (fun k => b.auto k && pix.any (fun i => decide ((b.val k i).2 ≠ 0))) = true ↔
      ∃ k, b.notCross k ∧ ∃ i ∈ pix, (b.val k i).2 ≠ 0 := by
  simp only [List.any_eq_true, List.mem_range, Bool.and_eq_true, decide_eq_true_eq, auto_iff hv]
  constructor
  · rintro ⟨k, -, h1, h2⟩; exact ⟨k, h1, h2⟩
  · rintro ⟨k, h1, h2⟩
    obtain ⟨p, hp, -⟩ := id h1
    exact ⟨k, (List.getElem?_eq_some_iff.1 hp).1, h1, h2⟩

/-- C213: a power beam passes the check exactly if all values of polarizations that are not cross polarizations are real; it is not changed. -/
theorem auto_check (norm : K × K → K) (pix : List I) (b b' : Power K I) (hv : b.valid) :
    checkAuto norm pix false b = .ok b' ↔ b' = b ∧ ∀ k, b.notCross k → ∀ i ∈ pix, (b.val k i).2 = 0 := by
  unfold checkAuto
  split
  · rename_i h
    obtain ⟨k, h1, i, hi, h2⟩ := (found_iff hv pix).1 h
    simp only [Bool.false_eq_true, ↓reduceIte, reduceCtorEq, false_iff]
    rintro ⟨-, hc⟩
    exact h2 (hc k h1 i hi)
  · rename_i h
    have h : ∀ k, b.notCross k → ∀ i ∈ pix, (b.val k i).2 = 0 := by
      intro k h1 i hi
      by_contra h2
      exact h ((found_iff hv pix).2 ⟨k, h1, i, hi, h2⟩)
    exact ⟨fun e => ⟨(Except.ok.inj e).symm, h⟩, fun e => by rw [e.1]⟩

/-- What fixing does: magnitudes of polarizations that are not cross polarizations. -/
theorem fixAuto_val (norm : K × K → K) (b : Power K I) (hv : b.valid) : (fixAuto norm b).pols = b.pols ∧
    (∀ k, b.notCross k → ∀ i, (fixAuto norm b).val k i = (norm (b.val k i), 0)) ∧
    (∀ (k : Nat) p, b.pols[k]? = some p → IsCross p → ∀ i, (fixAuto norm b).val k i = b.val k i) ∧
    ((fixAuto norm b).ty = .real → b.ty = .real ∨ ∀ p ∈ b.pols, ¬ IsCross p) := by
  have hall : ∀ p ∈ b.pols, (isAuto p = true ↔ ¬ IsCross p) := fun p hp => isAuto_iff (hv p hp)
  unfold fixAuto
  split
  · rename_i h
    rw [List.all_eq_true] at h
    refine ⟨rfl, fun _ _ _ => rfl, ?_, fun _ => .inr (fun p hp => (hall p hp).1 (h p hp))⟩
    intro k p hp hx
    have hm := List.mem_of_getElem? hp
    exact absurd hx ((hall p hm).1 (h p hm))
  · split
    · refine ⟨rfl, ?_, ?_, fun h => .inl h⟩
      · intro k hk i
        dsimp only
        rw [if_pos ((auto_iff hv k).2 hk)]
      · intro k p hp hx i
        dsimp only
        rw [if_neg]
        intro hc
        obtain ⟨q, hq, hn⟩ := (auto_iff hv k).1 hc
        rw [hp] at hq
        cases hq
        exact hn hx
    · rename_i h
      refine ⟨rfl, ?_, fun _ _ _ _ _ => rfl, fun h => .inl h⟩
      rintro k ⟨p, hp, hx⟩
      have hm := List.mem_of_getElem? hp
      exact absurd (List.any_eq_true.2 ⟨p, hm, (hall p hm).2 hx⟩) h

/-- C213: with `fix_auto_power` a beam always passes, its polarizations that are not cross polarizations are real, the others are not changed, and
values are stored as complex numbers as long as there are cross polarizations. -/
theorem auto_fixed (norm : K × K → K) (pix : List I) (b : Power K I) (hv : b.valid) : ∃ b', checkAuto norm pix true b = .ok b' ∧ b'.pols = b.pols ∧
    (∀ k, b.notCross k → ∀ i ∈ pix, (b'.val k i).2 = 0) ∧
    (∀ (k : Nat) p, b.pols[k]? = some p → IsCross p → ∀ i, b'.val k i = b.val k i) ∧
    (b'.ty = .real → b.ty = .real ∨ ∀ p ∈ b.pols, ¬ IsCross p) := by
  unfold checkAuto
  split
  · obtain ⟨h1, h2, h3, h4⟩ := fixAuto_val norm b hv
    exact ⟨_, rfl, h1, fun k hk i _ => by rw [h2 k hk i], h3, h4⟩
  · rename_i h
    refine ⟨b, rfl, rfl, ?_, fun _ _ _ _ _ => rfl, fun h => .inl h⟩
    intro k h1 i hi
    by_contra h2
    exact h ((found_iff hv pix).2 ⟨k, h1, i, hi, h2⟩)

end

section
variable [Field K] [LinearOrder K] [IsStrictOrderedRing K]

/-- C213: values that are real and not negative are kept. -/
theorem auto_keeps_partial (norm : K × K → K) (hn : ∀ x, norm (x, 0) = |x|) (pix : List I) (b b' : Power K I) (hv : b.valid)
    (h : checkAuto norm pix true b = .ok b') {k : Nat} (hk : b.notCross k) {i : I} {x : K} (hx : b.val k i = (x, 0)) (h0 : 0 ≤ x) : b'.val k i = (x, 0) := by
  unfold checkAuto at h
  split at h
  · obtain rfl := Except.ok.inj h
    rw [(fixAuto_val norm b hv).2.1 k hk i, hx, hn, abs_of_nonneg h0]
  · obtain rfl := Except.ok.inj h
    exact hx

/-- C213: a negative value of a Stokes parameter changes its sign if any value of the beam is not real. -/
theorem negative_counterexample (norm : K × K → K) (hn : ∀ x, norm (x, 0) = |x|) (pix : List I) (b : Power K I) (hv : b.valid)
    {k l : Nat} {i j : I} {x : K} (hk : b.notCross k) (hx : b.val k i = (x, 0)) (h0 : x < 0) (hl : b.notCross l) (hj : j ∈ pix) (hc : (b.val l j).2 ≠ 0) :
    ∃ b', checkAuto norm pix true b = .ok b' ∧ b'.val k i = (-x, 0) := by
  unfold checkAuto
  rw [if_pos ((found_iff hv pix).2 ⟨l, hl, j, hj, hc⟩)]
  exact ⟨_, rfl, by rw [(fixAuto_val norm b hv).2.1 k hk i, hx, hn, abs_of_neg h0]⟩

/-- C213: a value that is not real is replaced by its magnitude, which is never its real part. -/
theorem magnitude_counterexample (norm : K × K → K) (pix : List I) (b : Power K I) (hv : b.valid) {k : Nat} {i : I}
    (hn : norm (b.val k i) * norm (b.val k i) = (b.val k i).1 * (b.val k i).1 + (b.val k i).2 * (b.val k i).2) (hk : b.notCross k) (hi : i ∈ pix) (hc : (b.val k i).2 ≠ 0) :
    ∃ b', checkAuto norm pix true b = .ok b' ∧ (b'.val k i).1 ≠ (b.val k i).1 := by
  unfold checkAuto
  rw [if_pos ((found_iff hv pix).2 ⟨k, hk, i, hi, hc⟩)]
  refine ⟨_, rfl, ?_⟩
  rw [(fixAuto_val norm b hv).2.1 k hk i]
  intro h
  have h1 := hn
  have h : norm (b.val k i) = (b.val k i).1 := h
  rw [h] at h1
  have : (b.val k i).2 * (b.val k i).2 = 0 := by linarith
  exact hc (mul_self_eq_zero.1 this)

end
end Verif.NewBeam
