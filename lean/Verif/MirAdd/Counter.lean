import Verif.MirAdd.Props

/-! Tables of MIR records that are not added as they should be. -/

namespace Verif.MirAdd

variable {A : Type} [DecidableEq A]

/-- C216: of records that are not sorted by their keys the wrong ones are taken: each record of the sum is one that is not used in its
table, though the other table has one that is used, and it is used from then on. -/
theorem order_counterexample {i j : Nat} (h : j < i) (a b c d : A) :
    addTables [⟨i, a, true⟩, ⟨j, b, false⟩] [⟨i, c, false⟩, ⟨j, d, true⟩] none none false = .ok [⟨j, b, true⟩, ⟨i, c, true⟩] := by
  have hij : ¬ i ≤ j := by omega
  have hne : i ≠ j := by omega
  have hne' : j ≠ i := by omega
  have hk : ∀ (x y : A) (p q : Bool), keys [⟨i, x, p⟩, ⟨j, y, q⟩] = [j, i] := by
    intro x y p q
    unfold keys
    simp [List.insertionSort, List.orderedInsert, hij]
  unfold addTables dicts
  simp [hk, both, resolve, keep, good, find, hne, hne']

/-- C216: records of the second table are discarded by the mask of the first one: a record that is used is lost, one that is not used is kept. -/
theorem discard_counterexample {i j : Nat} (h : i ≠ j) (a b : A) :
    addTables [⟨i, a, false⟩] [⟨j, b, true⟩] none none true = .ok [] ∧
    addTables [⟨i, a, true⟩] [⟨j, b, false⟩] none none true = .ok [⟨i, a, true⟩, ⟨j, b, false⟩] := by
  have hk : ∀ (i : Nat) (x : A) (p : Bool), keys [⟨i, x, p⟩] = [i] := by
    intro i x p
    rfl
  constructor
  · unfold addTables dicts
    simp [hk, both, resolve, keep, good, find, h, h.symm]
  · unfold addTables dicts
    simp [hk, both, resolve, keep, good, find, h, h.symm]

/-- C216: a longer second table cannot be added at all if records are discarded. -/
theorem index_counterexample {t u : List (Rec A)} (hl : t.length < u.length) (hb : ∃ r ∈ t, r.good = false) :
    addTables t u none none true = .error .index := by
  have : (t.all Rec.good && u.all Rec.good) = false := by
    obtain ⟨r, hr, hg⟩ := hb
    rw [Bool.and_eq_false_iff]
    left
    rw [List.all_eq_false]
    exact ⟨r, hr, by simp [hg]⟩
  unfold addTables
  rw [if_neg (by simp), if_neg (by simp)]
  unfold dicts
  rw [this, if_pos (by simp), if_pos hl]

omit [DecidableEq A] in
/-- C216: tables that are not loaded. -/
theorem empty_sum [DecidableEq A] (t : Option (List (Rec A))) (u : List (Rec A)) (merge overwrite : Option Bool) (discard : Bool) :
    add t none merge overwrite discard = .ok t ∧ add none (some u) merge overwrite discard = .ok (some u) := by
  constructor
  · cases t <;> rfl
  · rfl

end Verif.MirAdd
