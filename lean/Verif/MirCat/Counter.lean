import Verif.MirCat.Props

/-! Where spectra are read from though they are elsewhere. -/

namespace Verif.MirCat

variable {F P R V J : Type} [DecidableEq J]

/-- Line 3003: for an integration with a number of both objects, the sum reads the file of the first object at the positions of the second one. -/
theorem number_counterexample {s o : Obj F P R V J} (ho : Good o) (b : Bool) {k i : Nat} {f : F} {r : R} {p q : P} (hi : i ∈ s.ints)
    (h1 : place s (k, i) = some (f, r, p)) (h2 : whereSp o (k, i) = some q) (hpq : p ≠ q) :
    place (cat b s o) (k, i) = some (f, r, q) ∧ place (cat b s o) (k, i) ≠ place s (k, i) := by
  have hw : whereSp (cat b s o) (k, i) = some q := by
    unfold whereSp at h2 ⊢
    dsimp only at h2 ⊢
    have e : (cat b s o).spDict = s.spDict ++ o.spDict.map (fun p => (newKey o.ints s.ints p.1, p.2.map (fun q => (newKey (sphids o) (sphids s) q.1, q.2)))) ++ o.spDict := rfl
    cases hd : get o.spDict i with
    | none => rw [hd] at h2; cases h2
    | some d =>
      rw [hd] at h2
      rw [e, get_append, hd]
      exact h2
  have h3 : place (cat b s o) (k, i) = some (f, r, q) := by
    unfold place at h1 ⊢
    dsimp only at h1 ⊢
    rw [whereInt_first ho b hi, hw]
    cases ha : whereInt s i with
    | none => rw [ha] at h1; cases h1
    | some x =>
      obtain ⟨a, c⟩ := x
      rw [ha] at h1
      cases hb : whereSp s (k, i) with
      | none => rw [hb] at h1; cases h1
      | some y =>
        rw [hb] at h1
        simp only [Option.some.injEq, Prod.mk.injEq] at h1 ⊢
        exact ⟨h1.1, h1.2.1, trivial⟩
  refine ⟨h3, ?_⟩
  rw [h3, h1]
  intro e
  simp only [Option.some.injEq, Prod.mk.injEq] at e
  exact hpq e.2.2.symm

/-- And spectra that the second object does not have there cannot be read any more. -/
theorem missing_counterexample {s o : Obj F P R V J} (b : Bool) {k i : Nat} {d : List (Nat × P)} (h1 : get o.spDict i = some d) (h2 : get d k = none) :
    place (cat b s o) (k, i) = none := by
  have hw : whereSp (cat b s o) (k, i) = none := by
    unfold whereSp
    dsimp only
    have e : (cat b s o).spDict = s.spDict ++ o.spDict.map (fun p => (newKey o.ints s.ints p.1, p.2.map (fun q => (newKey (sphids o) (sphids s) q.1, q.2)))) ++ o.spDict := rfl
    rw [e, get_append, h1]
    exact h2
  unfold place
  rw [hw]
  cases whereInt (cat b s o) (k, i).2 <;> rfl

/-- Line 2909 before line 2990: in place, data that are scaled differently are put together, with the scale of the second object. -/
theorem inplace_counterexample {s o : Obj F P R V J} {v w : List (Nat × V)} (hv : s.vis = some v) (hw : o.vis = some w) (ht : s.tsys = o.tsys)
    (hj : s.jypk ≠ o.jypk) : (∃ n, (cat true s o).vis = some n) ∧ (cat true s o).jypk = o.jypk ∧ (cat false s o).vis = none := by
  refine ⟨?_, rfl, ?_⟩
  · have e : (cat true s o).vis = sumVis o.jypk s o := rfl
    rw [e]
    unfold sumVis
    rw [hv, hw]
    dsimp only
    rw [if_neg (by rw [not_or, not_not, not_not]; exact ⟨ht, rfl⟩)]
    exact ⟨_, rfl⟩
  · have e : (cat false s o).vis = sumVis s.jypk s o := rfl
    rw [e]
    unfold sumVis
    rw [hv, hw]
    dsimp only
    rw [if_pos (Or.inr hj)]

end Verif.MirCat
