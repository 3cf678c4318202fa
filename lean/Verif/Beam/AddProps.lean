import Verif.Beam.Add
import Verif.Beam.Select

/-! What adding beam objects keeps. -/
namespace Verif.Beam
open Verif.Np Verif.FreqSort Verif.Add

section axis
variable {κ : Type} [DecidableEq κ]

/-- What is needed of the sorting. -/
def Arranges (argsort : List κ → List Nat) : Prop := ∀ l, (argsort l).Perm (List.range l.length)

theorem newInds_lt (A B : List κ) : ∀ i ∈ newInds A B, i < B.length := by
  intro i hi
  unfold newInds at hi
  rw [mem_whereIdx] at hi
  obtain ⟨x, hx, -⟩ := hi
  exact (List.getElem?_eq_some_iff.1 hx).1

theorem new_labels (A B : List κ) : fancy B (newInds A B) = B.filter (fun x => !A.contains x) := by unfold newInds; rw [fancy_where]

variable (argsort : List κ → List Nat) (hs : Arranges argsort) {A B : List κ} (hA : A.Nodup) (hB : B.Nodup)
include hs

theorem order_perm (A B : List κ) : (axisAdd argsort A B).order.Perm (List.range (A ++ fancy B (newInds A B)).length) := by
  unfold axisAdd
  simp only
  split
  · rename_i h
    rw [h]
    simp [fancy]
  · exact hs _

theorem labels_perm (A B : List κ) : (axisAdd argsort A B).labels.Perm (A ++ fancy B (newInds A B)) := fancy_perm _ _ (order_perm argsort hs A B)

theorem labels_mem (x : κ) : x ∈ (axisAdd argsort A B).labels ↔ x ∈ A ∨ x ∈ B := by
  rw [(labels_perm argsort hs A B).mem_iff, List.mem_append, new_labels, List.mem_filter]
  by_cases h : x ∈ A <;> simp [h]

include hA hB in
theorem labels_nodup : (axisAdd argsort A B).labels.Nodup := by
  refine (labels_perm argsort hs A B).symm.nodup ?_
  rw [List.nodup_append']
  refine ⟨hA, by rw [new_labels]; exact hB.filter _, ?_⟩
  intro x hx hx'
  rw [new_labels, List.mem_filter] at hx'
  simp [hx] at hx'

/-- What stands at a position of the result. -/
theorem padSort_at {β : Type} (zero : β) (f : Nat → β) (i : Nat) (x : κ) (hx : (axisAdd argsort A B).labels[i]? = some x) :
    (x ∈ A → ∃ m : Nat, A[m]? = some x ∧ padSort (axisAdd argsort A B) A.length zero f i = f m) ∧
    (x ∉ A → padSort (axisAdd argsort A B) A.length zero f i = zero) := by
  have hlt : ∀ m ∈ (axisAdd argsort A B).order, m < (A ++ fancy B (newInds A B)).length := perm_lt (order_perm argsort hs A B)
  have e : (axisAdd argsort A B).labels = fancy (A ++ fancy B (newInds A B)) (axisAdd argsort A B).order := rfl
  rw [e, fancy_get _ _ hlt, Option.bind_eq_some_iff] at hx
  obtain ⟨m, hm, hx⟩ := hx
  have hD : (axisAdd argsort A B).order.getD i 0 = m := by rw [List.getD_eq_getElem?_getD, hm]; rfl
  unfold padSort
  rw [hD]
  by_cases h : m < A.length
  · rw [List.getElem?_append_left h] at hx
    refine ⟨fun _ => ⟨m, hx, if_pos h⟩, fun hn => absurd (List.mem_of_getElem? hx) hn⟩
  · rw [List.getElem?_append_right (by omega)] at hx
    have := List.mem_of_getElem? hx
    rw [new_labels, List.mem_filter] at this
    refine ⟨fun hy => ?_, fun _ => if_neg h⟩
    simp [hy] at this

omit hs in
theorem source_at (i : Nat) (x : κ) (hx : (axisAdd argsort A B).labels[i]? = some x) :
    (x ∉ B → source (axisAdd argsort A B) i = none) ∧
    (x ∈ B → ∃ m, source (axisAdd argsort A B) i = some m) := by
  have hin : i ∈ (axisAdd argsort A B).t2o ↔ x ∈ B := by
    show i ∈ t2o (axisAdd argsort A B).labels B ↔ _
    unfold t2o
    rw [mem_whereIdx, hx]
    simp
  unfold source
  constructor
  · intro hn
    rw [if_neg (by rw [hin]; exact hn)]
  · intro hn
    rw [if_pos (by rw [hin]; exact hn)]
    exact ⟨_, rfl⟩

omit hs in
theorem t2o_lt : ∀ k ∈ (axisAdd argsort A B).t2o, k < (axisAdd argsort A B).labels.length := by
  intro k hk
  have hk' : k ∈ t2o (axisAdd argsort A B).labels B := hk
  unfold t2o at hk'
  rw [mem_whereIdx] at hk'
  obtain ⟨y, hy, -⟩ := hk'
  exact (List.getElem?_eq_some_iff.1 hy).1

omit hs in
theorem t2o_labels : fancy (axisAdd argsort A B).labels (axisAdd argsort A B).t2o = (axisAdd argsort A B).labels.filter (fun x => B.contains x) := by
  show fancy (axisAdd argsort A B).labels (t2o (axisAdd argsort A B).labels B) = _
  unfold t2o
  rw [fancy_where]

include hA hB in
theorem t2o_perm : (fancy (axisAdd argsort A B).labels (axisAdd argsort A B).t2o).Perm B := by
  rw [t2o_labels]
  refine (List.perm_ext_iff_of_nodup ((labels_nodup argsort hs hA hB).filter _) hB).2 fun x => ?_
  rw [List.mem_filter, labels_mem argsort hs]
  simp only [List.contains_eq_mem, decide_eq_true_eq]
  tauto

omit hs in
theorem source_some (i m : Nat) (hm : source (axisAdd argsort A B) i = some m) :
    (fancy (axisAdd argsort A B).labels (axisAdd argsort A B).t2o)[m]? = (axisAdd argsort A B).labels[i]? := by
  unfold source at hm
  split at hm
  · rename_i hi
    cases hm
    rw [fancy_get _ _ (t2o_lt argsort), List.getElem?_idxOf hi]
    rfl
  · cases hm

include hA hB in
/-- A label of the other object gets the value of some label of the other object. -/
theorem source_mem (i m : Nat) (hm : source (axisAdd argsort A B) i = some m) : m < B.length := by
  have h := source_some argsort i m hm
  have hi : i < (axisAdd argsort A B).labels.length := by
    unfold source at hm
    split at hm
    · rename_i hi
      exact t2o_lt argsort i hi
    · cases hm
  rw [List.getElem?_eq_getElem hi] at h
  have := (List.getElem?_eq_some_iff.1 h).1
  rwa [(t2o_perm argsort hs hA hB).length_eq] at this

include hA hB in
/-- Where the labels of the other object are in order, a label gets the value it has there. -/
theorem source_get (i m : Nat) (x : κ) (hx : (axisAdd argsort A B).labels[i]? = some x) (hm : source (axisAdd argsort A B) i = some m)
    (ho : B.Sublist (axisAdd argsort A B).labels) : B[m]? = some x := by
  have h := source_some argsort i m hm
  have e : (axisAdd argsort A B).labels.filter (fun x => B.contains x) = B := by
    refine Eq.trans ?_ (sublist_filter (labels_nodup argsort hs hA hB) ho)
    apply List.filter_congr
    intro y _
    rw [List.contains_eq_mem]
  rw [t2o_labels, e] at h
  rw [h, hx]

include hA hB in
/-- Where they are not, some label gets the value of another one. -/
theorem source_swapped (ho : ¬B.Sublist (axisAdd argsort A B).labels) :
    ∃ (i m : Nat) (x z : κ), (axisAdd argsort A B).labels[i]? = some x ∧ source (axisAdd argsort A B) i = some m ∧ B[m]? = some z ∧ x ∈ B ∧ x ≠ z := by
  by_contra hc
  push Not at hc
  apply ho
  have hp := t2o_perm argsort hs hA hB
  have e : fancy (axisAdd argsort A B).labels (axisAdd argsort A B).t2o = B := by
    apply List.ext_getElem? 
    intro n
    by_cases hn : n < B.length
    · have hn' : n < (axisAdd argsort A B).t2o.length := by
        have := hp.length_eq
        rw [fancy_length _ _ (t2o_lt argsort)] at this
        omega
      have hnd : (axisAdd argsort A B).t2o.Nodup := by
        show (t2o (axisAdd argsort A B).labels B).Nodup
        unfold t2o
        exact (whereIdx_sorted _ _).imp ne_of_lt
      have hin : (axisAdd argsort A B).t2o[n] ∈ (axisAdd argsort A B).t2o := List.getElem_mem _
      have hl := t2o_lt argsort _ hin
      have hsrc : source (axisAdd argsort A B) (axisAdd argsort A B).t2o[n] = some n := by
        unfold source
        rw [if_pos hin, hnd.idxOf_getElem]
      have hxB : (axisAdd argsort A B).labels[(axisAdd argsort A B).t2o[n]] ∈ B := by
        rw [← hp.mem_iff]
        refine List.mem_of_getElem? (i := n) ?_
        rw [source_some argsort _ _ hsrc, List.getElem?_eq_getElem hl]
      have := hc _ n _ _ (List.getElem?_eq_getElem hl) hsrc (List.getElem?_eq_getElem hn) hxB
      rw [source_some argsort _ _ hsrc, List.getElem?_eq_getElem hl, List.getElem?_eq_getElem hn, this]
    · rw [List.getElem?_eq_none (by rw [hp.length_eq]; omega), List.getElem?_eq_none (by omega)]
  have hsub : (fancy (axisAdd argsort A B).labels (axisAdd argsort A B).t2o).Sublist (axisAdd argsort A B).labels := by
    rw [t2o_labels]
    exact List.filter_sublist
  rwa [e] at hsub

include hA hB in
/-- Where both lists are in the order of the sorting, so is the result, and nothing is swapped. -/
theorem inOrder_of_sorted {L : Type} [LinearOrder L] (key : κ → L) (hk : ∀ l, ((fancy l (argsort l)).map key).Pairwise (· ≤ ·))
    (h1 : (A.map key).Pairwise (· < ·)) (h2 : (B.map key).Pairwise (· < ·)) : B.Sublist (axisAdd argsort A B).labels := by
  have hs1 : ((axisAdd argsort A B).labels.map key).Pairwise (· ≤ ·) := by
    show ((fancy (A ++ fancy B (newInds A B)) (if newInds A B = [] then List.range A.length else argsort (A ++ fancy B (newInds A B)))).map key).Pairwise (· ≤ ·)
    split
    · rename_i h
      rw [h]
      have e : fancy (A ++ fancy B []) (List.range A.length) = A := by
        rw [show fancy B [] = [] from rfl, List.append_nil, fancy_range]
      rw [e]
      exact h1.imp le_of_lt
    · exact hk _
  have hp := t2o_perm argsort hs hA hB
  have hs2 : ((fancy (axisAdd argsort A B).labels (axisAdd argsort A B).t2o).map key).Pairwise (· ≤ ·) := by
    rw [t2o_labels]
    exact hs1.sublist (List.filter_sublist.map key)
  have em : (fancy (axisAdd argsort A B).labels (axisAdd argsort A B).t2o).map key = B.map key :=
    (hp.map key).eq_of_pairwise (fun a b _ _ h h' => le_antisymm h h') hs2 (h2.imp le_of_lt)
  have hinj : ∀ x ∈ B, ∀ y ∈ B, key x = key y → x = y := fun x hx y hy => List.inj_on_of_nodup_map (h2.imp ne_of_lt) hx hy
  have e : fancy (axisAdd argsort A B).labels (axisAdd argsort A B).t2o = B := by
    apply List.ext_getElem hp.length_eq
    intro n h1 h2
    refine hinj _ (hp.mem_iff.1 (List.getElem_mem _)) _ (List.getElem_mem _) ?_
    have := congrArg (fun l => l[n]?) em
    simpa [h1, h2] using this
  have hsub : (fancy (axisAdd argsort A B).labels (axisAdd argsort A B).t2o).Sublist (axisAdd argsort A B).labels := by
    rw [t2o_labels]
    exact List.filter_sublist
  rwa [e] at hsub

end axis

section
variable {K V B C X : Type} [LinearOrder K]

theorem polAx_arranges (so : Sorts K) (b : Bool) : Arranges (fun l : List Int => so.int.run (if b then l.map (fun p => |p|) else l)) := by
  intro l
  cases b with
  | false => exact (so.int.sorts l).1
  | true => simpa using (so.int.sorts (l.map (fun p => |p|))).1

theorem num_arranges (so : Sorts K) : Arranges so.num.run := fun l => (so.num.sorts l).1

/-- The labels of the other object come in the result in the order they have in the other object. -/
structure InOrder (other r : Obj K V B C X) : Prop where
  pols : other.pols.Sublist r.pols
  freqs : other.freqs.Sublist r.freqs
  ax2 : other.ax2.Sublist r.ax2
  ax1 : other.ax1.Sublist r.ax1

variable [Zero K] [Zero V] [Zero B] [Zero C] [Zero X]

omit [LinearOrder K] [Zero K] [Zero V] [Zero B] [Zero C] [Zero X] in
theorem common_iff {κ : Type} [DecidableEq κ] (A B : List κ) : common A B = true ↔ ∃ x, x ∈ A ∧ x ∈ B := by
  unfold common
  simp

/-- The labels of the result. -/
structure Union (this other r : Obj K V B C X) : Prop where
  pols : ∀ p, p ∈ r.pols ↔ p ∈ this.pols ∨ p ∈ other.pols
  freqs : ∀ f, f ∈ r.freqs ↔ f ∈ this.freqs ∨ f ∈ other.freqs
  ax2 : ∀ y, y ∈ r.ax2 ↔ y ∈ this.ax2 ∨ y ∈ other.ax2
  ax1 : ∀ x, x ∈ r.ax1 ↔ x ∈ this.ax1 ∨ x ∈ other.ax1

theorem add_ok (so : Sorts K) (rc : Bool) (this other r : Obj K V B C X) (h : add so rc this other = (r, none)) :
    r = combine so (dropExtra this other) other ∧ this.power = other.power ∧ this.healpix = other.healpix ∧
    ¬(common this.pols other.pols && common this.freqs other.freqs && common this.ax1 other.ax1 && common this.ax2 other.ax2) := by
  unfold add at h
  split at h
  · cases h
  · rename_i h1
    simp only [not_or, not_not] at h1
    simp only at h
    split at h
    · cases h
    · rename_i h2
      split at h
      · cases h
      · cases h
        exact ⟨rfl, h1.1, h1.2, h2⟩

omit [LinearOrder K] [Zero K] [Zero V] [Zero B] [Zero C] [Zero X] in
theorem dropExtra_same (this other : Obj K V B C X) :
    (dropExtra this other).pols = this.pols ∧ (dropExtra this other).freqs = this.freqs ∧ (dropExtra this other).ax2 = this.ax2 ∧
    (dropExtra this other).ax1 = this.ax1 ∧ (dropExtra this other).data = this.data ∧ (dropExtra this other).bandpass = this.bandpass ∧
    (dropExtra this other).basis = this.basis ∧ (dropExtra this other).coupling = this.coupling ∧ (dropExtra this other).power = this.power ∧
    (dropExtra this other).healpix = this.healpix := by
  unfold dropExtra
  split <;> simp

omit [Zero K] [Zero V] [Zero B] [Zero C] [Zero X] in
theorem dropExtra_distinct {this other : Obj K V B C X} (h : Distinct this) : Distinct (dropExtra this other) := by
  obtain ⟨h1, h2, h3, h4, -⟩ := dropExtra_same this other
  exact ⟨by rw [h1]; exact h.pols, by rw [h2]; exact h.freqs, by rw [h3]; exact h.ax2, by rw [h4]; exact h.ax1⟩

/-- The result has every label of either object, once. -/
theorem add_labels (so : Sorts K) (rc : Bool) (this other r : Obj K V B C X) (hd : Distinct this) (hd' : Distinct other)
    (h : add so rc this other = (r, none)) : Union this other r ∧ Distinct r := by
  obtain ⟨rfl, -⟩ := add_ok so rc this other r h
  obtain ⟨e1, e2, e3, e4, -⟩ := dropExtra_same this other
  have d := dropExtra_distinct (other := other) hd
  refine ⟨⟨?_, ?_, ?_, ?_⟩, ⟨?_, ?_, ?_, ?_⟩⟩
  · intro p; rw [← e1]; exact labels_mem _ (polAx_arranges so _) p
  · intro p; rw [← e2]; exact labels_mem _ (num_arranges so) p
  · intro p; rw [← e3]; exact labels_mem _ (num_arranges so) p
  · intro p; rw [← e4]; exact labels_mem _ (num_arranges so) p
  · exact labels_nodup _ (polAx_arranges so _) d.pols hd'.pols
  · exact labels_nodup _ (num_arranges so) d.freqs hd'.freqs
  · exact labels_nodup _ (num_arranges so) d.ax2 hd'.ax2
  · exact labels_nodup _ (num_arranges so) d.ax1 hd'.ax1


/-- The values of the result at positions with given labels. -/
theorem combine_at (so : Sorts K) (this other : Obj K V B C X) (hd : Distinct this) (hd' : Distinct other)
    (ho : InOrder other (combine so this other)) {i j k l : Nat} {p : Int} {f y x : K} (hp : (combine so this other).pols[i]? = some p)
    (hf : (combine so this other).freqs[j]? = some f) (hy : (combine so this other).ax2[k]? = some y) (hx : (combine so this other).ax1[l]? = some x) :
    ((p ∈ other.pols ∧ f ∈ other.freqs ∧ y ∈ other.ax2 ∧ x ∈ other.ax1) → Has other p f y x ((combine so this other).data i j k l)) ∧
    (¬(p ∈ other.pols ∧ f ∈ other.freqs ∧ y ∈ other.ax2 ∧ x ∈ other.ax1) →
      ((p ∈ this.pols ∧ f ∈ this.freqs ∧ y ∈ this.ax2 ∧ x ∈ this.ax1) → Has this p f y x ((combine so this other).data i j k l)) ∧
      (¬(p ∈ this.pols ∧ f ∈ this.freqs ∧ y ∈ this.ax2 ∧ x ∈ this.ax1) → (combine so this other).data i j k l = 0)) := by
  have ed : (combine so this other).data i j k l = mergeData (polAx so this other) (freqAx so this other) (ax2Ax so this other) (ax1Ax so this other) this other i j k l := rfl
  have sp := source_at (A := this.pols) (B := other.pols) (fun l => so.int.run (if this.power then l.map (fun p => |p|) else l)) i p hp
  have sf := source_at (A := this.freqs) (B := other.freqs) so.num.run j f hf
  have sy := source_at (A := this.ax2) (B := other.ax2) so.num.run k y hy
  have sx := source_at (A := this.ax1) (B := other.ax1) so.num.run l x hx
  rw [ed]
  constructor
  · rintro ⟨h1, h2, h3, h4⟩
    unfold mergeData
    obtain ⟨i', hi⟩ := sp.2 h1
    obtain ⟨j', hj⟩ := sf.2 h2
    obtain ⟨k', hk⟩ := sy.2 h3
    obtain ⟨l', hl⟩ := sx.2 h4
    rw [show source (polAx so this other) i = some i' from hi, show source (freqAx so this other) j = some j' from hj,
      show source (ax2Ax so this other) k = some k' from hk, show source (ax1Ax so this other) l = some l' from hl]
    exact ⟨i', j', k', l', source_get _ (polAx_arranges so _) hd.pols hd'.pols i i' p hp hi ho.pols,
      source_get _ (num_arranges so) hd.freqs hd'.freqs j j' f hf hj ho.freqs,
      source_get _ (num_arranges so) hd.ax2 hd'.ax2 k k' y hy hk ho.ax2,
      source_get _ (num_arranges so) hd.ax1 hd'.ax1 l l' x hx hl ho.ax1, rfl⟩
  · intro hn
    have e : mergeData (polAx so this other) (freqAx so this other) (ax2Ax so this other) (ax1Ax so this other) this other i j k l =
        padData (polAx so this other) (freqAx so this other) (ax2Ax so this other) (ax1Ax so this other) this i j k l := by
      unfold mergeData
      split
      · rename_i i' j' k' l' h1 h2 h3 h4
        refine absurd ⟨?_, ?_, ?_, ?_⟩ hn
        · by_contra h; rw [show source (polAx so this other) i = none from sp.1 h] at h1; cases h1
        · by_contra h; rw [show source (freqAx so this other) j = none from sf.1 h] at h2; cases h2
        · by_contra h; rw [show source (ax2Ax so this other) k = none from sy.1 h] at h3; cases h3
        · by_contra h; rw [show source (ax1Ax so this other) l = none from sx.1 h] at h4; cases h4
      · rfl
    rw [e]
    unfold padData
    simp only
    obtain ⟨ap, ap'⟩ := padSort_at _ (polAx_arranges so this.power) (A := this.pols) (B := other.pols) (fun _ _ _ => (0 : V))
      (fun i => padSort (freqAx so this other) this.freqs.length (fun _ _ => 0)
        (fun j => padSort (ax2Ax so this other) this.ax2.length (fun _ => 0) (fun k => padSort (ax1Ax so this other) this.ax1.length 0 (this.data i j k)))) i p hp
    by_cases h1 : p ∈ this.pols
    · obtain ⟨i', hi', e1⟩ := ap h1
      rw [show padSort (polAx so this other) this.pols.length _ _ i = _ from e1]
      obtain ⟨af, af'⟩ := padSort_at _ (num_arranges so) (A := this.freqs) (B := other.freqs) (fun _ _ => (0 : V))
        (fun j => padSort (ax2Ax so this other) this.ax2.length (fun _ => 0) (fun k => padSort (ax1Ax so this other) this.ax1.length 0 (this.data i' j k))) j f hf
      by_cases h2 : f ∈ this.freqs
      · obtain ⟨j', hj', e2⟩ := af h2
        rw [show padSort (freqAx so this other) this.freqs.length _ _ j = _ from e2]
        obtain ⟨ay, ay'⟩ := padSort_at _ (num_arranges so) (A := this.ax2) (B := other.ax2) (fun _ => (0 : V))
          (fun k => padSort (ax1Ax so this other) this.ax1.length 0 (this.data i' j' k)) k y hy
        by_cases h3 : y ∈ this.ax2
        · obtain ⟨k', hk', e3⟩ := ay h3
          rw [show padSort (ax2Ax so this other) this.ax2.length _ _ k = _ from e3]
          obtain ⟨axx, ax'⟩ := padSort_at _ (num_arranges so) (A := this.ax1) (B := other.ax1) (0 : V) (this.data i' j' k') l x hx
          by_cases h4 : x ∈ this.ax1
          · obtain ⟨l', hl', e4⟩ := axx h4
            refine ⟨fun _ => ⟨i', j', k', l', hi', hj', hk', hl', e4.symm⟩, fun h => absurd ⟨h1, h2, h3, h4⟩ h⟩
          · exact ⟨fun h => absurd h.2.2.2 h4, fun _ => ax' h4⟩
        · exact ⟨fun h => absurd h.2.2.1 h3, fun _ => congrFun (ay' h3) l⟩
      · exact ⟨fun h => absurd h.2.1 h2, fun _ => congrFun (congrFun (af' h2) k) l⟩
    · exact ⟨fun h => absurd h.1 h1, fun _ => congrFun (congrFun (congrFun (ap' h1) j) k) l⟩

/-- What one of the objects has for a frequency. -/
theorem mergeFreq_at {β : Type} (so : Sorts K) (A B' : List K) (hA : A.Nodup) (hB : B'.Nodup) (zero : β) (a b : Nat → β)
    (ho : B'.Sublist (axisAdd so.num.run A B').labels) {j : Nat} {f : K} (hf : (axisAdd so.num.run A B').labels[j]? = some f) :
    (f ∈ B' → ∃ m : Nat, B'[m]? = some f ∧ mergeFreq (axisAdd so.num.run A B') A.length zero a b j = b m) ∧
    (f ∉ B' → ∃ m : Nat, A[m]? = some f ∧ mergeFreq (axisAdd so.num.run A B') A.length zero a b j = a m) := by
  have sf := source_at (A := A) (B := B') _ j f hf
  unfold mergeFreq
  constructor
  · intro h
    obtain ⟨m, hm⟩ := sf.2 h
    rw [hm]
    exact ⟨m, source_get _ (num_arranges so) hA hB j m f hf hm ho, rfl⟩
  · intro h
    rw [sf.1 h]
    have hA' : f ∈ A := by
      have := (labels_mem _ (num_arranges so) f).1 (List.mem_of_getElem? hf)
      exact this.resolve_right h
    obtain ⟨m, hm, e⟩ := (padSort_at _ (num_arranges so) (A := A) (B := B') zero a j f hf).1 hA'
    exact ⟨m, hm, e⟩

/-- Adding with `+=` keeps, for all objects whose labels come in the result in the order they have in the other object: the values of both, the
passband and the extra arrays of the other object, and of this object where the other does not have the frequency. -/
theorem add_keeps_partial (so : Sorts K) (rc : Bool) (this other r : Obj K V B C X) (hd : Distinct this) (hd' : Distinct other)
    (h : add so rc this other = (r, none)) (ho : InOrder other r) :
    (∀ p f y x v, Has r p f y x v ↔ Has other p f y x v ∨ Has this p f y x v ∨
      (p ∈ r.pols ∧ f ∈ r.freqs ∧ y ∈ r.ax2 ∧ x ∈ r.ax1 ∧ ¬(∃ w, Has other p f y x w) ∧ ¬(∃ w, Has this p f y x w) ∧ v = 0)) ∧
    (∀ f b, HasBand r f b ↔ HasBand other f b ∨ (HasBand this f b ∧ f ∉ other.freqs)) ∧
    (other.extra.isSome = true → this.extra.isSome = true → ∀ f e, HasExtra r f e ↔ HasExtra other f e ∨ (HasExtra this f e ∧ f ∉ other.freqs)) ∧
    (¬(other.extra.isSome = true ∧ this.extra.isSome = true) → r.extra = none) := by
  have hd1 := add_labels so rc this other r hd hd' h
  obtain ⟨rfl, -, -, hno⟩ := add_ok so rc this other r h
  obtain ⟨e1, e2, e3, e4, e5, e6, e7, e8, e9, e10⟩ := dropExtra_same this other
  have d := dropExtra_distinct (other := other) hd
  obtain ⟨hu, hdr⟩ := hd1
  have hex : ∀ (o : Obj K V B C X) p f y x, (∃ w, Has o p f y x w) ↔ p ∈ o.pols ∧ f ∈ o.freqs ∧ y ∈ o.ax2 ∧ x ∈ o.ax1 := by
    intro o p f y x
    constructor
    · rintro ⟨w, i, j, k, l, h1, h2, h3, h4, -⟩
      exact ⟨List.mem_of_getElem? h1, List.mem_of_getElem? h2, List.mem_of_getElem? h3, List.mem_of_getElem? h4⟩
    · rintro ⟨h1, h2, h3, h4⟩
      obtain ⟨i, hi⟩ := List.getElem?_of_mem h1
      obtain ⟨j, hj⟩ := List.getElem?_of_mem h2
      obtain ⟨k, hk⟩ := List.getElem?_of_mem h3
      obtain ⟨l, hl⟩ := List.getElem?_of_mem h4
      exact ⟨_, i, j, k, l, hi, hj, hk, hl, rfl⟩
  have inj : ∀ {α : Type} {L : List α} (hn : L.Nodup) {m n : Nat} {x : α}, L[m]? = some x → L[n]? = some x → m = n := by
    intro α L hn m n x h1 h2
    exact (List.getElem?_inj (List.getElem?_eq_some_iff.1 h1).1 hn).1 (h1.trans h2.symm)
  have huniq : ∀ (o : Obj K V B C X), Distinct o → ∀ p f y x v w, Has o p f y x v → Has o p f y x w → v = w := by
    rintro o hd p f y x v w ⟨i, j, k, l, a1, a2, a3, a4, rfl⟩ ⟨i', j', k', l', b1, b2, b3, b4, rfl⟩
    rw [inj hd.pols a1 b1, inj hd.freqs a2 b2, inj hd.ax2 a3 b3, inj hd.ax1 a4 b4]
  have hthis : ∀ p f y x v, Has (dropExtra this other) p f y x v ↔ Has this p f y x v := by
    intro p f y x v
    unfold Has
    rw [e1, e2, e3, e4, e5]
  have hboth : ∀ p f y x, ¬((p ∈ other.pols ∧ f ∈ other.freqs ∧ y ∈ other.ax2 ∧ x ∈ other.ax1) ∧ (p ∈ this.pols ∧ f ∈ this.freqs ∧ y ∈ this.ax2 ∧ x ∈ this.ax1)) := by
    rintro p f y x ⟨⟨a1, a2, a3, a4⟩, b1, b2, b3, b4⟩
    apply hno
    simp only [Bool.and_eq_true, common_iff]
    exact ⟨⟨⟨⟨p, b1, a1⟩, ⟨f, b2, a2⟩⟩, ⟨x, b4, a4⟩⟩, ⟨y, b3, a3⟩⟩
  -- the value the result has
  have key : ∀ p f y x v, Has (combine so (dropExtra this other) other) p f y x v →
      ((p ∈ other.pols ∧ f ∈ other.freqs ∧ y ∈ other.ax2 ∧ x ∈ other.ax1) → Has other p f y x v) ∧
      (¬(p ∈ other.pols ∧ f ∈ other.freqs ∧ y ∈ other.ax2 ∧ x ∈ other.ax1) →
        ((p ∈ this.pols ∧ f ∈ this.freqs ∧ y ∈ this.ax2 ∧ x ∈ this.ax1) → Has this p f y x v) ∧
        (¬(p ∈ this.pols ∧ f ∈ this.freqs ∧ y ∈ this.ax2 ∧ x ∈ this.ax1) → v = 0)) := by
    rintro p f y x v ⟨i, j, k, l, a1, a2, a3, a4, rfl⟩
    have := combine_at so (dropExtra this other) other d hd' ho a1 a2 a3 a4
    simp only [hthis] at this
    rw [e1, e2, e3, e4] at this
    exact this
  refine ⟨?_, ?_, ?_, ?_⟩
  · intro p f y x v
    constructor
    · intro hv
      obtain ⟨k1, k2⟩ := key p f y x v hv
      have hin := (hex _ p f y x).1 ⟨v, hv⟩
      by_cases hO : p ∈ other.pols ∧ f ∈ other.freqs ∧ y ∈ other.ax2 ∧ x ∈ other.ax1
      · exact Or.inl (k1 hO)
      · by_cases hT : p ∈ this.pols ∧ f ∈ this.freqs ∧ y ∈ this.ax2 ∧ x ∈ this.ax1
        · exact Or.inr (Or.inl ((k2 hO).1 hT))
        · refine Or.inr (Or.inr ⟨hin.1, hin.2.1, hin.2.2.1, hin.2.2.2, ?_, ?_, (k2 hO).2 hT⟩)
          · rw [hex]; exact hO
          · rw [hex]; exact hT
    · rintro (hv | hv | ⟨i1, i2, i3, i4, n1, n2, rfl⟩)
      · have hO := (hex other p f y x).1 ⟨v, hv⟩
        obtain ⟨w, hw⟩ := (hex (combine so (dropExtra this other) other) p f y x).2
          ⟨(hu.pols p).2 (Or.inr hO.1), (hu.freqs f).2 (Or.inr hO.2.1), (hu.ax2 y).2 (Or.inr hO.2.2.1), (hu.ax1 x).2 (Or.inr hO.2.2.2)⟩
        rw [huniq other hd' p f y x v w hv ((key _ _ _ _ _ hw).1 hO)]
        exact hw
      · have hT := (hex this p f y x).1 ⟨v, hv⟩
        obtain ⟨w, hw⟩ := (hex (combine so (dropExtra this other) other) p f y x).2
          ⟨(hu.pols p).2 (Or.inl hT.1), (hu.freqs f).2 (Or.inl hT.2.1), (hu.ax2 y).2 (Or.inl hT.2.2.1), (hu.ax1 x).2 (Or.inl hT.2.2.2)⟩
        rw [huniq this hd p f y x v w hv (((key _ _ _ _ _ hw).2 (fun hO => hboth p f y x ⟨hO, hT⟩)).1 hT)]
        exact hw
      · obtain ⟨w, hw⟩ := (hex (combine so (dropExtra this other) other) p f y x).2 ⟨i1, i2, i3, i4⟩
        rw [hex] at n1 n2
        rw [← ((key _ _ _ _ _ hw).2 n1).2 n2]
        exact hw
  · intro f b
    have hm : ∀ j : Nat, (combine so (dropExtra this other) other).freqs[j]? = some f → _ := fun j hf =>
      mergeFreq_at so (dropExtra this other).freqs other.freqs d.freqs hd'.freqs (0 : K) (dropExtra this other).bandpass other.bandpass ho.freqs hf
    rw [e2, e6] at hm
    constructor
    · rintro ⟨j, hj, rfl⟩
      by_cases hO : f ∈ other.freqs
      · obtain ⟨m, hm1, hm2⟩ := (hm j hj).1 hO
        exact Or.inl ⟨m, hm1, by rw [← hm2, ← e2, ← e6]; rfl⟩
      · obtain ⟨m, hm1, hm2⟩ := (hm j hj).2 hO
        exact Or.inr ⟨⟨m, hm1, by rw [← hm2, ← e2, ← e6]; rfl⟩, hO⟩
    · rintro (⟨m', hm', rfl⟩ | ⟨⟨m', hm', rfl⟩, hO⟩)
      · obtain ⟨j, hj⟩ := List.getElem?_of_mem ((hu.freqs f).2 (Or.inr (List.mem_of_getElem? hm')))
        obtain ⟨m, hm1, hm2⟩ := (hm j hj).1 (List.mem_of_getElem? hm')
        rw [inj hd'.freqs hm' hm1, ← hm2, ← e2, ← e6]
        exact ⟨j, hj, rfl⟩
      · obtain ⟨j, hj⟩ := List.getElem?_of_mem ((hu.freqs f).2 (Or.inl (List.mem_of_getElem? hm')))
        obtain ⟨m, hm1, hm2⟩ := (hm j hj).2 hO
        rw [inj hd.freqs hm' hm1, ← hm2, ← e2, ← e6]
        exact ⟨j, hj, rfl⟩
  · intro hso hst f e
    obtain ⟨b, hb⟩ := Option.isSome_iff_exists.1 hso
    obtain ⟨a, ha⟩ := Option.isSome_iff_exists.1 hst
    have hda : (dropExtra this other).extra = some a := by unfold dropExtra; rw [hb]; exact ha
    have hr : (combine so (dropExtra this other) other).extra = some (mergeFreq (freqAx so (dropExtra this other) other) (dropExtra this other).freqs.length 0 a b) := by
      show (match (dropExtra this other).extra, other.extra with
        | some a, some b => some (mergeFreq (freqAx so (dropExtra this other) other) (dropExtra this other).freqs.length 0 a b)
        | _, _ => (dropExtra this other).extra) = _
      rw [hda, hb]
    have hm : ∀ j : Nat, (combine so (dropExtra this other) other).freqs[j]? = some f → _ := fun j hf =>
      mergeFreq_at so (dropExtra this other).freqs other.freqs d.freqs hd'.freqs (0 : X) a b ho.freqs hf
    unfold HasExtra
    rw [hr, hb, ha]
    simp only [Option.some.injEq, exists_eq_left']
    constructor
    · rintro ⟨j, hj, rfl⟩
      by_cases hO : f ∈ other.freqs
      · obtain ⟨m, hm1, hm2⟩ := (hm j hj).1 hO
        exact Or.inl ⟨m, hm1, hm2.symm⟩
      · obtain ⟨m, hm1, hm2⟩ := (hm j hj).2 hO
        exact Or.inr ⟨⟨m, by rw [← e2]; exact hm1, hm2.symm⟩, hO⟩
    · rintro (⟨m', hm', rfl⟩ | ⟨⟨m', hm', rfl⟩, hO⟩)
      · obtain ⟨j, hj⟩ := List.getElem?_of_mem ((hu.freqs f).2 (Or.inr (List.mem_of_getElem? hm')))
        obtain ⟨m, hm1, hm2⟩ := (hm j hj).1 (List.mem_of_getElem? hm')
        rw [inj hd'.freqs hm' hm1, ← hm2]
        exact ⟨j, hj, rfl⟩
      · obtain ⟨j, hj⟩ := List.getElem?_of_mem ((hu.freqs f).2 (Or.inl (List.mem_of_getElem? hm')))
        obtain ⟨m, hm1, hm2⟩ := (hm j hj).2 hO
        rw [e2] at hm1
        rw [inj hd.freqs hm' hm1, ← hm2]
        exact ⟨j, hj, rfl⟩
  · intro hn
    show (match (dropExtra this other).extra, other.extra with
        | some a, some b => some (mergeFreq (freqAx so (dropExtra this other) other) (dropExtra this other).freqs.length 0 a b)
        | _, _ => (dropExtra this other).extra) = _
    unfold dropExtra
    cases ho' : other.extra <;> cases ht' : this.extra <;> simp_all

end
end Verif.Beam
