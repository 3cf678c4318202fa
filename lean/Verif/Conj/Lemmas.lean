import Verif.Conj.Spec
import Verif.Pol.Props
import Verif.Baseline.Props

namespace Verif.Conj
open Verif.Np
open Verif.Pol (conjNum reorderConjPols)

variable {R C : Type} [AddCommGroup R] [LinearOrder R] [IsOrderedAddMonoid R]

theorem updAt_get {β : Type} (idx : List Nat) (f : Nat → β → β) (xs : List β) (i : Nat) :
    (updAt idx f xs)[i]? = if i ∈ idx then (xs[i]?).map (f i) else xs[i]? := by
  unfold updAt
  rw [List.getElem?_mapIdx]
  split
  · cases xs[i]? <;> simp
  · cases xs[i]? <;> simp

theorem updAt_length {β : Type} (idx : List Nat) (f : Nat → β → β) (xs : List β) :
    (updAt idx f xs).length = xs.length := by simp [updAt]

/-- The fold of assignments with distinct targets. -/
theorem fold_set (cj : C → C) (newPol : List Nat) (orig : List C)
    (hinj : ∀ i j k : Nat, newPol[i]? = some k → newPol[j]? = some k → i = j) :
    ∀ (ps : List Nat) (row : List C), ps.Nodup →
      ∀ q : Nat, (ps.foldl (conjStep cj newPol orig) row)[q]? =
        if q < row.length then
          (match ps.find? (fun p => decide (newPol[p]? = some q ∧ p < orig.length)) with
            | some p => (orig[p]?).map cj
            | none => row[q]?)
        else none := by
  intro ps
  induction ps with
  | nil =>
    intro row _ q
    simp only [List.foldl_nil, List.find?_nil]
    split
    · rfl
    · rw [List.getElem?_eq_none (by omega)]
  | cons p ps ih =>
    intro row hnd q
    have hp := (List.nodup_cons.1 hnd).1
    have hnd' := (List.nodup_cons.1 hnd).2
    simp only [List.foldl_cons]
    rw [ih _ hnd' q]
    unfold conjStep
    cases hn : newPol[p]? with
    | none =>
      simp only [List.find?_cons, hn]
      simp
    | some q' =>
      by_cases hpl : p < orig.length
      · rw [List.getElem?_eq_getElem hpl]
        simp only [List.length_set, List.find?_cons, hn]
        by_cases hq : q' = q
        · subst hq
          simp only [hpl, and_self, decide_true]
          have hnone : ps.find? (fun p => decide (newPol[p]? = some q' ∧ p < orig.length)) = none := by
            rw [List.find?_eq_none]
            intro p' hp' hc
            simp only [decide_eq_true_eq] at hc
            have := hinj p p' q' hn hc.1
            subst this
            exact hp hp'
          rw [hnone]
          split
          · rename_i hlt
            simp [hlt, List.getElem?_eq_getElem hpl]
          · rfl
        · have : ¬ (some q' = some q ∧ p < orig.length) := by simp [hq]
          simp only [this, decide_false]
          rw [List.getElem?_set_ne hq]
      · rw [List.getElem?_eq_none (by omega)]
        simp only [List.find?_cons, hn]
        simp [hpl]

/-- One channel after the loop: position `q` holds the conjugate of the value at the position paired with it. -/
theorem conjRow_get (cj : C → C) (newPol : List Nat) (orig : List C)
    (hinv : ∀ i j : Nat, newPol[i]? = some j → newPol[j]? = some i) (hl : newPol.length = orig.length) (p q : Nat)
    (hpq : newPol[p]? = some q) : (conjRow cj newPol orig)[q]? = (orig[p]?).map cj := by
  have hinj : ∀ i j k : Nat, newPol[i]? = some k → newPol[j]? = some k → i = j := by
    intro i j k h1 h2
    have e1 := hinv i k h1
    have e2 := hinv j k h2
    rw [e1] at e2
    simpa using e2
  unfold conjRow
  rw [fold_set cj newPol orig hinj _ _ List.nodup_range]
  have hqp := hinv p q hpq
  have hql : q < orig.length := by rw [← hl]; exact (List.getElem?_eq_some_iff.1 hqp).1
  have hpl : p < orig.length := by rw [← hl]; exact (List.getElem?_eq_some_iff.1 hpq).1
  rw [if_pos hql]
  have : (List.range orig.length).find? (fun p => decide (newPol[p]? = some q ∧ p < orig.length)) = some p := by
    cases hf : (List.range orig.length).find? (fun p => decide (newPol[p]? = some q ∧ p < orig.length)) with
    | none =>
      rw [List.find?_eq_none] at hf
      exact absurd (by simp [hpq, hpl]) (hf p (by simpa using hpl))
    | some p' =>
      have := List.find?_some hf
      simp only [decide_eq_true_eq] at this
      rw [hinj p p' q hpq this.1]
  rw [this]

theorem conjRow_length (cj : C → C) (newPol : List Nat) (orig : List C) :
    (conjRow cj newPol orig).length = orig.length := by
  unfold conjRow
  have : ∀ (ps : List Nat) (row : List C), (ps.foldl (conjStep cj newPol orig) row).length = row.length := by
    intro ps
    induction ps with
    | nil => simp
    | cons p ps ih =>
      intro row
      simp only [List.foldl_cons]
      rw [ih]
      unfold conjStep
      cases newPol[p]? <;> cases orig[p]? <;> simp
  exact this _ _

theorem at3_upd {β : Type} (idx : List Nat) (g : List β → List β) (d : List (List (List β))) (i f k : Nat)
    (hi : i ∈ idx) : at3 (updAt idx (fun _ row => row.map g) d) i f k =
      (((d[i]?).bind (fun r => r[f]?)).map g).bind (fun r => r[k]?) := by
  unfold at3
  rw [updAt_get, if_pos hi]
  cases d[i]? with
  | none => rfl
  | some r =>
    simp only [Option.map_some, Option.bind_some, List.getElem?_map]

theorem mem_indexArray {o : Obj R C} {c : Convention} {ue : Bool} {tol : R} {i : Nat} :
    i ∈ indexArray o c ue tol ↔ i < o.ant1.length ∧ selected o c ue tol i = true := by
  simp [indexArray]

omit [IsOrderedAddMonoid R] in
theorem selected_iff (o : Obj R C) (c : Convention) (ue : Bool) (tol : R) (i : Nat) :
    selected o c ue tol i = true ↔ Violates o ue tol i c := by
  cases c <;> simp only [selected, Violates, near, Bool.or_eq_true, Bool.and_eq_true, decide_eq_true_eq, gt_iff_lt]
  all_goals first | rfl | tauto

end Verif.Conj
