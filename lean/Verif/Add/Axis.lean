import Verif.FreqSort.Lemmas

/-!
One axis of `UVData.__add__`, uvdata.py 5231–5821: how positions of the two objects are matched.

`A` are the labels of this object along the axis, `B` those of the other one. For baseline-times a label is the string made
of the formatted time and the baseline number (lines 5318–5335), for channels the pair of spectral window and frequency, for
polarizations the polarization number.
-/
namespace Verif.Add
open Verif.Np Verif.FreqSort

variable {κ : Type} [DecidableEq κ]

/-! ### Model -/

/-- `l[pos] = vals` for an integer index array. -/
def scatter (l pos vals : List Nat) : List Nat := (pos.zip vals).foldl (fun l p => l.set p.1 p.2) l

/-- `np.argsort` of distinct integers. -/
def argsortNat (l : List Nat) : List Nat := (List.range l.length).insertionSort (fun i j => l.getD i 0 ≤ l.getD j 0)

/-- Indices returned by `np.intersect1d(…, return_indices=True)`, lines 5337–5364. -/
def overlapInds (common A : List κ) : List Nat := common.map (fun x => A.idxOf x)

/-- Lines 5552–5562 (5564–5573, 5575–5584): `temp_ind`, the new order of this object; `ia`, `ib` are the overlap indices. -/
def reorderInds (n : Nat) (ia ib : List Nat) : List Nat :=
  if ia ≠ [] ∧ argsortNat ia ≠ argsortNat ib then
    scatter (List.range n) (fancy ia (argsortNat ia)) (fancy (List.range n) (fancy ia (argsortNat ib)))
  else List.range n

/-- Line 5406: positions in the other object of new labels. -/
def newInds (A B : List κ) : List Nat := whereIdx (fun x => !A.contains x) B

/-- Line 5723: positions in this (padded) object of labels of the other object. -/
def t2o (L B : List κ) : List Nat := whereIdx (fun x => B.contains x) L

/-! ### Lemmas -/

theorem fancy_get {α : Type} (xs : List α) (idx : List Nat) (h : ∀ i ∈ idx, i < xs.length) (k : Nat) :
    (fancy xs idx)[k]? = (idx[k]?).bind (fun i => xs[i]?) := by
  have := congrArg (fun l => l[k]?) (fancy_map xs idx h)
  simp only [List.getElem?_map] at this
  cases hk : idx[k]? with
  | none =>
    rw [hk] at this
    simpa using this
  | some i =>
    rw [hk] at this
    have hi := h i (List.mem_of_getElem? hk)
    simp only [Option.map_some] at this
    rw [List.getElem?_eq_getElem hi] at this
    cases hf : (fancy xs idx)[k]? with
    | none => rw [hf] at this; simp at this
    | some y =>
      rw [hf] at this
      simp only [Option.map_some, Option.some.injEq] at this
      simp [this, List.getElem?_eq_getElem hi]

theorem fancy_length {α : Type} (xs : List α) (idx : List Nat) (h : ∀ i ∈ idx, i < xs.length) :
    (fancy xs idx).length = idx.length := by
  have := congrArg List.length (fancy_map xs idx h)
  simpa using this

theorem fancy_where {α : Type} (p : α → Bool) (l : List α) : fancy l (whereIdx p l) = l.filter p := by
  have key : ∀ (l : List α) (s : Nat) (full : List α), (∀ i : Nat, l[i]? = full[s + i]?) →
      ((l.zipIdx s).filter (fun q => p q.1)).filterMap (fun q => full[q.2]?) = l.filter p := by
    intro l
    induction l with
    | nil => intros; rfl
    | cons x l ih =>
      intro s full h
      have h0 := h 0
      simp only [List.getElem?_cons_zero, Nat.add_zero] at h0
      have ih' := ih (s + 1) full (fun i => by
        have := h (i + 1)
        rw [List.getElem?_cons_succ] at this
        rw [this]; congr 1; omega)
      rw [List.zipIdx_cons, List.filter_cons, List.filter_cons]
      by_cases hp : p x = true
      · simp only [hp, if_true]
        rw [List.filterMap_cons, ← h0]
        simp only [ih']
      · simp only [hp, Bool.false_eq_true, if_false]
        exact ih'
  have hw : whereIdx p l = ((l.zipIdx 0).filter (fun q => p q.1)).map (·.2) := by
    have hs : (((l.zipIdx 0).filter (fun q => p q.1)).map (·.2)).Pairwise (· < ·) := by
      have h1 : ((l.zipIdx 0).map (·.2)).Pairwise (· < ·) := by
        rw [List.zipIdx_map_snd]
        simpa using List.pairwise_lt_range' 
      exact h1.sublist (List.Sublist.map _ List.filter_sublist)
    apply strictSorted_ext (whereIdx_sorted p l) hs
    intro i
    rw [mem_whereIdx]
    simp only [List.mem_map, List.mem_filter]
    constructor
    · rintro ⟨x, hx, hpx⟩
      refine ⟨(x, i), ⟨?_, hpx⟩, rfl⟩
      rw [List.mem_zipIdx_iff_getElem?]
      exact hx
    · rintro ⟨⟨x, j⟩, ⟨hm, hp⟩, rfl⟩
      rw [List.mem_zipIdx_iff_getElem?] at hm
      exact ⟨x, hm, hp⟩
  unfold fancy
  rw [hw, List.filterMap_map]
  exact key l 0 l (fun i => by rw [Nat.zero_add])

theorem argsortNat_perm (l : List Nat) : (argsortNat l).Perm (List.range l.length) := List.perm_insertionSort _ _

theorem argsortNat_lt (l : List Nat) : ∀ i ∈ argsortNat l, i < l.length := perm_lt (argsortNat_perm l)

theorem fancy_argsort_perm (l : List Nat) : (fancy l (argsortNat l)).Perm l := fancy_perm l _ (argsortNat_perm l)

theorem fancy_argsort_sorted (l : List Nat) : (fancy l (argsortNat l)).Pairwise (· ≤ ·) := by
  have h : (argsortNat l).Pairwise (fun i j => l.getD i 0 ≤ l.getD j 0) := by
    unfold argsortNat
    have : Std.Total (fun i j : Nat => l.getD i 0 ≤ l.getD j 0) := ⟨fun a b => le_total _ _⟩
    have : IsTrans Nat (fun i j : Nat => l.getD i 0 ≤ l.getD j 0) := ⟨fun a b c => le_trans⟩
    exact List.pairwise_insertionSort _ _
  unfold fancy
  rw [List.pairwise_filterMap]
  refine h.imp ?_
  intro i j hij a ha b hb
  simpa [List.getD_eq_getElem?_getD, ha, hb] using hij

/-- The overlap of two label lists, in any order. -/
structure Common (A B common : List κ) : Prop where
  nodup : common.Nodup
  mem : ∀ x, x ∈ common ↔ x ∈ A ∧ x ∈ B

variable {A B common : List κ}

theorem overlap_nodup (hc : common.Nodup) (hA : ∀ x ∈ common, x ∈ A) : (overlapInds common A).Nodup := by
  apply List.Nodup.map_on _ hc
  intro x hx y hy h
  have h1 := List.getElem?_idxOf (hA x hx)
  have h2 := List.getElem?_idxOf (hA y hy)
  rw [h, h2] at h1
  exact (Option.some.inj h1).symm

theorem overlap_mem (hA : A.Nodup) (hc : Common A B common) (i : Nat) :
    i ∈ overlapInds common A ↔ ∃ x, A[i]? = some x ∧ x ∈ B := by
  unfold overlapInds
  rw [List.mem_map]
  constructor
  · rintro ⟨x, hx, rfl⟩
    have := (hc.mem x).1 hx
    exact ⟨x, List.getElem?_idxOf this.1, this.2⟩
  · rintro ⟨x, hx, hB⟩
    refine ⟨x, (hc.mem x).2 ⟨List.mem_of_getElem? hx, hB⟩, ?_⟩
    obtain ⟨hlt, rfl⟩ := List.getElem?_eq_some_iff.1 hx
    exact hA.idxOf_getElem i hlt

/-- Sorted overlap indices are the positions of shared labels. -/
theorem sorted_overlap (hA : A.Nodup) (hc : Common A B common) :
    fancy (overlapInds common A) (argsortNat (overlapInds common A)) = whereIdx (fun x => B.contains x) A := by
  have hn : (fancy (overlapInds common A) (argsortNat (overlapInds common A))).Nodup :=
    (fancy_argsort_perm _).symm.nodup (overlap_nodup hc.nodup (fun x hx => ((hc.mem x).1 hx).1))
  have hs : (fancy (overlapInds common A) (argsortNat (overlapInds common A))).Pairwise (· < ·) :=
    (fancy_argsort_sorted _).imp₂ (fun a b h1 h2 => lt_of_le_of_ne h1 h2) hn
  apply strictSorted_ext hs (whereIdx_sorted _ _)
  intro i
  rw [(fancy_argsort_perm _).mem_iff, overlap_mem hA hc, mem_whereIdx]
  simp only [List.contains_iff_mem]

theorem fancy_map_comm {α β : Type} (f : α → β) (xs : List α) (idx : List Nat) : fancy (xs.map f) idx = (fancy xs idx).map f := by
  unfold fancy
  rw [List.map_filterMap]
  congr 1
  funext i
  rw [List.getElem?_map]

theorem fancy_range_of_lt (n : Nat) (idx : List Nat) (h : ∀ i ∈ idx, i < n) : fancy (List.range n) idx = idx := by
  unfold fancy
  induction idx with
  | nil => rfl
  | cons i idx ih =>
    rw [List.filterMap_cons, List.getElem?_range (h i (by simp))]
    simp only [ih (fun j hj => h j (by simp [hj]))]

theorem common_symm (hc : Common A B common) : Common B A common := ⟨hc.nodup, fun x => by rw [hc.mem x, and_comm]⟩

/-- The labels of this object put in the places of the shared labels are those of the other object, in its order. -/
theorem values_overlap (hB : B.Nodup) (hc : Common A B common) :
    fancy A (fancy (overlapInds common A) (argsortNat (overlapInds common B))) = B.filter (fun x => A.contains x) := by
  have e2 : argsortNat (overlapInds common B) = argsortNat (overlapInds common B) := rfl
  have hl : ∀ i ∈ argsortNat (overlapInds common B), i < common.length := by
    intro i hi
    have := argsortNat_lt _ i hi
    simpa [overlapInds] using this
  have toCommon : ∀ (L : List κ), (∀ x ∈ common, x ∈ L) →
      fancy L (fancy (overlapInds common L) (argsortNat (overlapInds common B))) =
        fancy common (argsortNat (overlapInds common B)) := by
    intro L hL
    unfold overlapInds at hl ⊢
    rw [fancy_map_comm]
    unfold fancy
    rw [List.filterMap_map]
    have hin : ∀ x ∈ fancy common (argsortNat (common.map (fun x => B.idxOf x))), ((fun i : Nat => L[i]?) ∘ fun x => L.idxOf x) x = some x := by
      intro x hx
      simp only [Function.comp_apply]
      apply List.getElem?_idxOf
      apply hL
      unfold fancy at hx
      rw [List.mem_filterMap] at hx
      obtain ⟨i, _, h⟩ := hx
      exact List.mem_of_getElem? h
    unfold fancy at hin
    rw [List.filterMap_congr hin]
    exact List.filterMap_some
  rw [toCommon A (fun x hx => ((hc.mem x).1 hx).1), ← toCommon B (fun x hx => ((hc.mem x).1 hx).2),
    sorted_overlap hB (common_symm hc), fancy_where]

/-! `scatter` -/

theorem scatter_length (l pos vals : List Nat) : (scatter l pos vals).length = l.length := by
  unfold scatter
  generalize pos.zip vals = ps
  induction ps generalizing l with
  | nil => rfl
  | cons p ps ih => rw [List.foldl_cons, ih]; simp

theorem scatter_other (l pos vals : List Nat) (i : Nat) (h : i ∉ pos) : (scatter l pos vals)[i]? = l[i]? := by
  unfold scatter
  induction pos generalizing l vals with
  | nil => simp
  | cons p pos ih =>
    cases vals with
    | nil => simp
    | cons v vals =>
      rw [List.zip_cons_cons, List.foldl_cons, ih _ _ (fun hc => h (by simp [hc]))]
      rw [List.getElem?_set_ne]
      rintro rfl
      exact h (by simp)

theorem scatter_at (l pos vals : List Nat) (hn : pos.Nodup) (hl : vals.length = pos.length) (hb : ∀ p ∈ pos, p < l.length)
    (k p : Nat) (hk : pos[k]? = some p) : (scatter l pos vals)[p]? = vals[k]? := by
  induction pos generalizing l vals k with
  | nil => simp at hk
  | cons q pos ih =>
    cases vals with
    | nil => simp at hl
    | cons v vals =>
      rw [List.nodup_cons] at hn
      cases k with
      | zero =>
        simp only [List.getElem?_cons_zero, Option.some.injEq] at hk ⊢
        subst hk
        have := scatter_other (l.set q v) pos vals q hn.1
        unfold scatter at this ⊢
        rw [List.zip_cons_cons, List.foldl_cons, this]
        rw [List.getElem?_set_self (hb q (by simp))]
      | succ k =>
        simp only [List.getElem?_cons_succ] at hk ⊢
        have := ih (l.set q v) vals hn.2 (by simpa using hl) (fun p hp => by rw [List.length_set]; exact hb p (by simp [hp])) k hk
        unfold scatter at this ⊢
        rw [List.zip_cons_cons, List.foldl_cons, this]

theorem scatter_self (n : Nat) (pos : List Nat) : scatter (List.range n) pos pos = List.range n := by
  unfold scatter
  have : ∀ l : List Nat, l = List.range n → (pos.zip pos).foldl (fun l p => l.set p.1 p.2) l = List.range n := by
    induction pos with
    | nil => intro l h; simpa using h
    | cons p pos ih =>
      intro l h
      rw [List.zip_cons_cons, List.foldl_cons]
      apply ih
      rw [h]
      apply List.ext_getElem?
      intro i
      rw [List.getElem?_set]
      split
      · rename_i h'; subst h'
        split
        · rename_i h2
          rw [List.getElem?_range (by simpa using h2)]
        · rename_i h2
          rw [List.getElem?_eq_none (by simpa using h2)]
      · rfl
  exact this _ rfl

/-- In all cases the order is a scatter. -/
theorem reorderInds_eq (n : Nat) (ia ib : List Nat) (hl : ia.length = ib.length) (hb : ∀ i ∈ ia, i < n) :
    reorderInds n ia ib = scatter (List.range n) (fancy ia (argsortNat ia)) (fancy ia (argsortNat ib)) := by
  unfold reorderInds
  have hin : ∀ i ∈ fancy ia (argsortNat ib), i < n := by
    intro i hi
    unfold fancy at hi
    rw [List.mem_filterMap] at hi
    obtain ⟨j, _, h⟩ := hi
    exact hb i (List.mem_of_getElem? h)
  split
  · rw [fancy_range_of_lt n _ hin]
  · rename_i h
    rw [not_and_or, not_not, not_not] at h
    rcases h with h | h
    · subst h
      simp [fancy, scatter, argsortNat]
    · rw [← h, scatter_self]

/-- What holds of the reordering of this object along one axis. -/
structure Reordered (A B : List κ) (perm : List Nat) : Prop where
  isPerm : perm.Perm (List.range A.length)
  /-- shared labels stay in the places of shared labels -/
  places : ∀ i : Nat, (∃ x, (fancy A perm)[i]? = some x ∧ x ∈ B) ↔ ∃ x, A[i]? = some x ∧ x ∈ B
  /-- shared labels come in the order of the other object -/
  order : (fancy A perm).filter (fun x => B.contains x) = B.filter (fun x => A.contains x)

theorem reordered (hA : A.Nodup) (hB : B.Nodup) (hc : Common A B common) :
    Reordered A B (reorderInds A.length (overlapInds common A) (overlapInds common B)) := by
  have hia : ∀ i ∈ overlapInds common A, i < A.length := by
    intro i hi
    obtain ⟨x, hx, -⟩ := (overlap_mem hA hc i).1 hi
    exact (List.getElem?_eq_some_iff.1 hx).1
  have hll : (overlapInds common A).length = (overlapInds common B).length := by simp [overlapInds]
  rw [reorderInds_eq A.length _ _ hll hia, sorted_overlap hA hc]
  set S := whereIdx (fun x => B.contains x) A with hS
  set V := fancy (overlapInds common A) (argsortNat (overlapInds common B)) with hV
  have hoa : ∀ i ∈ argsortNat (overlapInds common B), i < (overlapInds common A).length := by
    intro i hi; rw [hll]; exact argsortNat_lt _ i hi
  have hVperm : V.Perm (overlapInds common A) := by
    rw [hV]; apply fancy_perm; rw [hll]; exact argsortNat_perm _
  have hSperm : S.Perm (overlapInds common A) := by
    rw [hS, ← sorted_overlap hA hc]; exact fancy_argsort_perm _
  have hSn : S.Nodup := (whereIdx_sorted _ _).imp (fun h => Nat.ne_of_lt h)
  have hVl : V.length = S.length := (hVperm.trans hSperm.symm).length_eq
  have hSlt : ∀ i ∈ S, i < A.length := fun i hi => hia i (hSperm.mem_iff.1 hi)
  have hVlt : ∀ i ∈ V, i < A.length := fun i hi => hia i (hVperm.mem_iff.1 hi)
  have hSlt' : ∀ i ∈ S, i < (List.range A.length).length := by simpa using hSlt
  set perm := scatter (List.range A.length) S V with hperm
  have hpl : perm.length = A.length := by rw [hperm, scatter_length]; simp
  have hat : ∀ (k p : Nat), S[k]? = some p → perm[p]? = V[k]? := fun k p h => scatter_at _ S V hSn hVl hSlt' k p h
  have hother : ∀ i : Nat, i ∉ S → perm[i]? = (List.range A.length)[i]? := fun i h => scatter_other _ S V i h
  -- entries are in range
  have hplt : ∀ i ∈ perm, i < A.length := by
    intro v hv
    obtain ⟨i, hi⟩ := List.mem_iff_getElem?.1 hv
    by_cases hiS : i ∈ S
    · obtain ⟨k, hk⟩ := List.mem_iff_getElem?.1 hiS
      rw [hat k i hk] at hi
      exact hVlt v (List.mem_of_getElem? hi)
    · rw [hother i hiS] at hi
      have := List.mem_of_getElem? hi
      simpa using this
  have hget : ∀ i : Nat, (fancy A perm)[i]? = (perm[i]?).bind (fun j => A[j]?) := fancy_get A perm hplt
  have hVB : ∀ v ∈ V, ∃ x, A[v]? = some x ∧ x ∈ B := fun v hv => (overlap_mem hA hc v).1 (hVperm.mem_iff.1 hv)
  have hSB : ∀ i, i ∈ S ↔ ∃ x, A[i]? = some x ∧ x ∈ B := fun i => by rw [← overlap_mem hA hc i]; exact hSperm.mem_iff
  have hplaces : ∀ i : Nat, (∃ x, (fancy A perm)[i]? = some x ∧ x ∈ B) ↔ ∃ x, A[i]? = some x ∧ x ∈ B := by
    intro i
    rw [← hSB i, hget i]
    by_cases hiS : i ∈ S
    · obtain ⟨k, hk⟩ := List.mem_iff_getElem?.1 hiS
      rw [hat k i hk]
      have hkl : k < V.length := by rw [hVl]; exact (List.getElem?_eq_some_iff.1 hk).1
      rw [List.getElem?_eq_getElem hkl]
      simp only [hiS, iff_true, Option.bind_some]
      exact hVB _ (List.getElem_mem hkl)
    · rw [hother i hiS]
      simp only [hiS, iff_false]
      rintro ⟨x, hx, hxB⟩
      by_cases hi : i < A.length
      · rw [List.getElem?_range hi] at hx
        exact hiS ((hSB i).2 ⟨x, hx, hxB⟩)
      · rw [List.getElem?_eq_none (by simpa using hi)] at hx
        simp at hx
  refine ⟨?_, hplaces, ?_⟩
  · -- permutation
    have hnd : perm.Nodup := by
      rw [List.nodup_iff_injective_getElem]
      intro a b hab
      simp only at hab
      have ha := List.getElem?_eq_getElem a.2
      have hb := List.getElem?_eq_getElem b.2
      have hab' : perm[a.1]? = perm[b.1]? := by rw [ha, hb, hab]
      have alt : a.1 < A.length := by rw [← hpl]; exact a.2
      have blt : b.1 < A.length := by rw [← hpl]; exact b.2
      apply Fin.ext
      by_cases haS : a.1 ∈ S <;> by_cases hbS : b.1 ∈ S
      · obtain ⟨k, hk⟩ := List.mem_iff_getElem?.1 haS
        obtain ⟨m, hm⟩ := List.mem_iff_getElem?.1 hbS
        rw [hat k _ hk, hat m _ hm] at hab'
        have hVn : V.Nodup := hVperm.symm.nodup (overlap_nodup hc.nodup (fun x hx => ((hc.mem x).1 hx).1))
        have hkl : k < V.length := by rw [hVl]; exact (List.getElem?_eq_some_iff.1 hk).1
        have := (List.getElem?_inj hkl hVn).1 hab'
        subst this
        rw [hk] at hm
        exact Option.some.inj hm
      · obtain ⟨k, hk⟩ := List.mem_iff_getElem?.1 haS
        rw [hat k _ hk, hother _ hbS, List.getElem?_range blt] at hab'
        have := hVB _ (List.mem_of_getElem? hab')
        exact absurd ((hSB b.1).2 this) hbS
      · obtain ⟨m, hm⟩ := List.mem_iff_getElem?.1 hbS
        rw [hat m _ hm, hother _ haS, List.getElem?_range alt] at hab'
        have := hVB _ (List.mem_of_getElem? hab'.symm)
        exact absurd ((hSB a.1).2 this) haS
      · rw [hother _ haS, hother _ hbS, List.getElem?_range alt, List.getElem?_range blt] at hab'
        exact Option.some.inj hab'
    have hsub : perm ⊆ List.range A.length := by
      intro v hv
      rw [List.mem_range]; exact hplt v hv
    exact (List.subperm_of_subset hnd hsub).perm_of_length_le (by simp [hpl])
  · rw [← fancy_where]
    have hw : whereIdx (fun x => B.contains x) (fancy A perm) = S := by
      apply strictSorted_ext (whereIdx_sorted _ _) (whereIdx_sorted _ _)
      intro i
      rw [mem_whereIdx, ← hS, hSB i]
      have := hplaces i
      simpa [List.contains_iff_mem] using this
    rw [hw, ← values_overlap hB hc, ← hV]
    apply List.ext_getElem?
    intro k
    rw [fancy_get _ _ (by rw [fancy_length A perm hplt, hpl]; exact hSlt), fancy_get A V hVlt]
    cases hk : S[k]? with
    | none =>
      have : V[k]? = none := by
        rw [List.getElem?_eq_none_iff] at hk ⊢; omega
      rw [this]; rfl
    | some p =>
      simp only [Option.bind_some]
      rw [hget p, hat k p hk]

/-! Labels of the padded object. -/

/-- The other object has all its shared labels before its new ones. -/
def OverlapFirst (A B : List κ) : Prop := B.filter (fun x => A.contains x) ++ B.filter (fun x => !A.contains x) = B

/-- Labels after padding: those of this object, reordered, and the new ones. -/
theorem padded_t2o {perm : List Nat} (h : Reordered A B perm) :
    fancy (fancy A perm ++ fancy B (newInds A B)) (t2o (A ++ fancy B (newInds A B)) B) =
      B.filter (fun x => A.contains x) ++ B.filter (fun x => !A.contains x) ∧
    t2o (A ++ fancy B (newInds A B)) B = t2o (fancy A perm ++ fancy B (newInds A B)) B := by
  have hlen : (fancy A perm).length = A.length := by
    rw [fancy_length A perm (perm_lt h.isPerm), h.isPerm.length_eq]; simp
  have e : t2o (A ++ fancy B (newInds A B)) B = t2o (fancy A perm ++ fancy B (newInds A B)) B := by
    unfold t2o
    apply strictSorted_ext (whereIdx_sorted _ _) (whereIdx_sorted _ _)
    intro i
    rw [mem_whereIdx, mem_whereIdx]
    by_cases hi : i < A.length
    · rw [List.getElem?_append_left hi, List.getElem?_append_left (by omega)]
      have := h.places i
      simpa [List.contains_iff_mem] using this.symm
    · rw [List.getElem?_append_right (by omega), List.getElem?_append_right (by omega), hlen]
  refine ⟨?_, e⟩
  rw [e]
  unfold t2o
  rw [fancy_where, List.filter_append, h.order]
  congr 1
  unfold newInds
  rw [fancy_where, List.filter_filter]
  apply List.filter_congr
  intro x hx
  simp [hx]

end Verif.Add
