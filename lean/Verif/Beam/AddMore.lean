import Verif.Beam.AddProps

/-! Adding beam objects: basis vectors, coupling, when it is refused, and what goes wrong. -/
namespace Verif.Beam
open Verif.Np Verif.FreqSort Verif.Add

variable {K V B C X : Type} [LinearOrder K] [Zero K] [Zero V] [Zero B] [Zero C] [Zero X]

theorem nodup_inj {α : Type} {L : List α} (hn : L.Nodup) {m n : Nat} {x : α} (h1 : L[m]? = some x) (h2 : L[n]? = some x) : m = n :=
  (List.getElem?_inj (List.getElem?_eq_some_iff.1 h1).1 hn).1 (h1.trans h2.symm)

/-- Basis vectors of E-field beams: those of the other object, elsewhere those of this object, zero where neither has the pixel. -/
theorem add_basis_partial (so : Sorts K) (rc : Bool) (this other r : Obj K V B C X) (hd : Distinct this) (hd' : Distinct other)
    (h : add so rc this other = (r, none)) (h2 : other.ax2.Sublist r.ax2) (h1 : other.ax1.Sublist r.ax1) (he : this.power = false)
    (hb : this.basis.isSome = true) (hb' : other.basis.isSome = true) :
    ∀ y x b, HasBasis r y x b ↔ HasBasis other y x b ∨ (HasBasis this y x b ∧ ¬(y ∈ other.ax2 ∧ x ∈ other.ax1)) ∨
      (y ∈ r.ax2 ∧ x ∈ r.ax1 ∧ ¬(y ∈ other.ax2 ∧ x ∈ other.ax1) ∧ ¬(y ∈ this.ax2 ∧ x ∈ this.ax1) ∧ b = 0) := by
  obtain ⟨hu, hdr⟩ := add_labels so rc this other r hd hd' h
  obtain ⟨rfl, -⟩ := add_ok so rc this other r h
  obtain ⟨e1, e2, e3, e4, e5, e6, e7, e8, e9, e10⟩ := dropExtra_same this other
  have d := dropExtra_distinct (other := other) hd
  generalize hT : dropExtra this other = T at *
  obtain ⟨b, hb'⟩ := Option.isSome_iff_exists.1 hb'
  obtain ⟨a, hb⟩ := Option.isSome_iff_exists.1 hb
  have hr : (combine so T other).basis = some ((ax2Ax so T other).labels.length, (ax1Ax so T other).labels.length, fun k l =>
      match source (ax2Ax so T other) k, source (ax1Ax so T other) l with
      | some k', some l' => b.2.2 k' l'
      | _, _ => padSort (ax2Ax so T other) T.ax2.length (fun _ => 0) (fun k => padSort (ax1Ax so T other) T.ax1.length 0 (a.2.2 k)) k l) := by
    show mergeBasis _ _ T other = _
    unfold mergeBasis
    rw [e9, he, e7, hb, hb']
    rfl
  have key : ∀ (k l : Nat) (y x : K), (combine so T other).ax2[k]? = some y → (combine so T other).ax1[l]? = some x →
      ((y ∈ other.ax2 ∧ x ∈ other.ax1) → ∃ m n : Nat, other.ax2[m]? = some y ∧ other.ax1[n]? = some x ∧
        (match source (ax2Ax so T other) k, source (ax1Ax so T other) l with
      | some k', some l' => b.2.2 k' l'
      | _, _ => padSort (ax2Ax so T other) T.ax2.length (fun _ => 0) (fun k => padSort (ax1Ax so T other) T.ax1.length 0 (a.2.2 k)) k l) = b.2.2 m n) ∧
      (¬(y ∈ other.ax2 ∧ x ∈ other.ax1) → ((y ∈ T.ax2 ∧ x ∈ T.ax1) → ∃ m n : Nat, T.ax2[m]? = some y ∧ T.ax1[n]? = some x ∧
        (match source (ax2Ax so T other) k, source (ax1Ax so T other) l with
      | some k', some l' => b.2.2 k' l'
      | _, _ => padSort (ax2Ax so T other) T.ax2.length (fun _ => 0) (fun k => padSort (ax1Ax so T other) T.ax1.length 0 (a.2.2 k)) k l) = a.2.2 m n) ∧
        (¬(y ∈ T.ax2 ∧ x ∈ T.ax1) → 
        (match source (ax2Ax so T other) k, source (ax1Ax so T other) l with
      | some k', some l' => b.2.2 k' l'
      | _, _ => padSort (ax2Ax so T other) T.ax2.length (fun _ => 0) (fun k => padSort (ax1Ax so T other) T.ax1.length 0 (a.2.2 k)) k l) = 0)) := by
    intro k l y x hy hx
    have sy := source_at (A := T.ax2) (B := other.ax2) so.num.run k y hy
    have sx := source_at (A := T.ax1) (B := other.ax1) so.num.run l x hx
    constructor
    · rintro ⟨i1, i2⟩
      obtain ⟨m, hm⟩ := sy.2 i1
      obtain ⟨n, hn⟩ := sx.2 i2
      rw [show source (ax2Ax so T other) k = some m from hm, show source (ax1Ax so T other) l = some n from hn]
      exact ⟨m, n, source_get _ (num_arranges so) d.ax2 hd'.ax2 k m y hy hm h2, source_get _ (num_arranges so) d.ax1 hd'.ax1 l n x hx hn h1, rfl⟩
    · intro hn
      split
      · rename_i k' l' w1 w2
        refine absurd ⟨?_, ?_⟩ hn
        · by_contra h; rw [show source (ax2Ax so T other) k = none from sy.1 h] at w1; cases w1
        · by_contra h; rw [show source (ax1Ax so T other) l = none from sx.1 h] at w2; cases w2
      · obtain ⟨ay, ay'⟩ := padSort_at _ (num_arranges so) (A := T.ax2) (B := other.ax2) (fun _ => (0 : B))
          (fun k => padSort (ax1Ax so T other) T.ax1.length 0 (a.2.2 k)) k y hy
        by_cases h3 : y ∈ T.ax2
        · obtain ⟨k', hk', e3⟩ := ay h3
          rw [show padSort (ax2Ax so T other) T.ax2.length _ _ k = _ from e3]
          obtain ⟨axx, ax'⟩ := padSort_at _ (num_arranges so) (A := T.ax1) (B := other.ax1) (0 : B) (a.2.2 k') l x hx
          by_cases h4 : x ∈ T.ax1
          · obtain ⟨l', hl', e4⟩ := axx h4
            exact ⟨fun _ => ⟨k', l', hk', hl', e4⟩, fun h => absurd ⟨h3, h4⟩ h⟩
          · exact ⟨fun h => absurd h.2 h4, fun _ => ax' h4⟩
        · exact ⟨fun h => absurd h.1 h3, fun _ => congrFun (ay' h3) l⟩
  rw [e3, e4] at key hr
  intro y x v
  unfold HasBasis
  rw [hr, hb, hb']
  simp only [Option.some.injEq, exists_eq_left']
  constructor
  · rintro ⟨k, l, hk, hl, rfl⟩
    obtain ⟨k1, k2⟩ := key k l y x hk hl
    by_cases hO : y ∈ other.ax2 ∧ x ∈ other.ax1
    · obtain ⟨m, n, hm, hn, e⟩ := k1 hO
      exact Or.inl ⟨m, n, hm, hn, e.symm⟩
    · by_cases hT : y ∈ this.ax2 ∧ x ∈ this.ax1
      · obtain ⟨m, n, hm, hn, e⟩ := (k2 hO).1 hT
        exact Or.inr (Or.inl ⟨⟨m, n, hm, hn, e.symm⟩, hO⟩)
      · exact Or.inr (Or.inr ⟨List.mem_of_getElem? hk, List.mem_of_getElem? hl, hO, hT, (k2 hO).2 hT⟩)
  · rintro (⟨m', n', hm', hn', rfl⟩ | ⟨⟨m', n', hm', hn', rfl⟩, hO⟩ | ⟨i1, i2, hO, hT, rfl⟩)
    · have hO : y ∈ other.ax2 ∧ x ∈ other.ax1 := ⟨List.mem_of_getElem? hm', List.mem_of_getElem? hn'⟩
      obtain ⟨k, hk⟩ := List.getElem?_of_mem ((hu.ax2 y).2 (Or.inr hO.1))
      obtain ⟨l, hl⟩ := List.getElem?_of_mem ((hu.ax1 x).2 (Or.inr hO.2))
      obtain ⟨m, n, hm, hn, e⟩ := (key k l y x hk hl).1 hO
      rw [nodup_inj hd'.ax2 hm' hm, nodup_inj hd'.ax1 hn' hn, ← e]
      exact ⟨k, l, hk, hl, rfl⟩
    · have hT : y ∈ this.ax2 ∧ x ∈ this.ax1 := ⟨List.mem_of_getElem? hm', List.mem_of_getElem? hn'⟩
      obtain ⟨k, hk⟩ := List.getElem?_of_mem ((hu.ax2 y).2 (Or.inl hT.1))
      obtain ⟨l, hl⟩ := List.getElem?_of_mem ((hu.ax1 x).2 (Or.inl hT.2))
      obtain ⟨m, n, hm, hn, e⟩ := ((key k l y x hk hl).2 hO).1 hT
      rw [nodup_inj hd.ax2 hm' hm, nodup_inj hd.ax1 hn' hn, ← e]
      exact ⟨k, l, hk, hl, rfl⟩
    · obtain ⟨k, hk⟩ := List.getElem?_of_mem i1
      obtain ⟨l, hl⟩ := List.getElem?_of_mem i2
      exact ⟨k, l, hk, hl, ((key k l y x hk hl).2 hO).2 hT⟩

/-- When it is done: the objects are of one kind and have no point in common, and with the check a power beam with basis vectors gets no new pixels. -/
theorem add_accepted_iff (so : Sorts K) (rc : Bool) (this other : Obj K V B C X) (hd : Distinct this) (hd' : Distinct other) (hs : this.shapes = true)
    (hb : this.power = false → this.basis.isSome = true → other.basis.isSome = true) :
    (add so rc this other).2 = none ↔ this.power = other.power ∧ this.healpix = other.healpix ∧
      ¬(∃ p f y x, (∃ v, Has this p f y x v) ∧ ∃ v, Has other p f y x v) ∧
      (rc = true → this.power = true → this.basis.isSome = true → (∀ y ∈ other.ax2, y ∈ this.ax2) ∧ ∀ x ∈ other.ax1, x ∈ this.ax1) := by
  have hex : ∀ (o : Obj K V B C X) p f y x, (∃ w, Has o p f y x w) ↔ p ∈ o.pols ∧ f ∈ o.freqs ∧ y ∈ o.ax2 ∧ x ∈ o.ax1 := by
    intro o p f y x
    constructor
    · rintro ⟨w, i, j, k, l, h1, h2, h3, h4, -⟩
      exact ⟨List.mem_of_getElem? h1, List.mem_of_getElem? h2, List.mem_of_getElem? h3, List.mem_of_getElem? h4⟩
    · rintro ⟨h1, h2, h3, h4⟩
      obtain ⟨i, hi⟩ := List.getElem?_of_mem h1
      obtain ⟨j, hj⟩ := List.getElem?_of_mem h2
      obtain ⟨k, hk⟩ := List.getElem?_of_mem h3
      obtain ⟨l, hl⟩ := List.getElem?_of_mem h4
      exact ⟨_, i, j, k, l, hi, hj, hk, hl, rfl⟩
  have hcom : (common this.pols other.pols && common this.freqs other.freqs && common this.ax1 other.ax1 && common this.ax2 other.ax2) = true ↔
      ∃ p f y x, (∃ v, Has this p f y x v) ∧ ∃ v, Has other p f y x v := by
    simp only [Bool.and_eq_true, common_iff, hex]
    constructor
    · rintro ⟨⟨⟨⟨p, a1, b1⟩, ⟨f, a2, b2⟩⟩, ⟨x, a3, b3⟩⟩, ⟨y, a4, b4⟩⟩
      exact ⟨p, f, y, x, ⟨a1, a2, a4, a3⟩, b1, b2, b4, b3⟩
    · rintro ⟨p, f, y, x, ⟨a1, a2, a4, a3⟩, b1, b2, b4, b3⟩
      exact ⟨⟨⟨⟨p, a1, b1⟩, ⟨f, a2, b2⟩⟩, ⟨x, a3, b3⟩⟩, ⟨y, a4, b4⟩⟩
  obtain ⟨e1, e2, e3, e4, e5, e6, e7, e8, e9, e10⟩ := dropExtra_same this other
  have d := dropExtra_distinct (other := other) hd
  have hlen : ∀ (A B' : List K), A.Nodup → B'.Nodup → (A.length = (axisAdd so.num.run A B').labels.length ↔ ∀ y ∈ B', y ∈ A) := by
    intro A B' hA hB
    rw [(labels_perm _ (num_arranges so) A B').length_eq, List.length_append, new_labels]
    constructor
    · intro h y hy
      have h0 : (B'.filter (fun x => !A.contains x)) = [] := List.eq_nil_of_length_eq_zero (by omega)
      rw [List.filter_eq_nil_iff] at h0
      simpa using h0 y hy
    · intro h
      have h0 : (B'.filter (fun x => !A.contains x)) = [] := by
        rw [List.filter_eq_nil_iff]
        intro y hy
        simpa using h y hy
      rw [h0]
      rfl
  have hsh : (combine so (dropExtra this other) other).shapes = true ↔
      (this.power = true → this.basis.isSome = true → (∀ y ∈ other.ax2, y ∈ this.ax2) ∧ ∀ x ∈ other.ax1, x ∈ this.ax1) := by
    have eb : (combine so (dropExtra this other) other).basis = mergeBasis (ax2Ax so (dropExtra this other) other) (ax1Ax so (dropExtra this other) other) (dropExtra this other) other := rfl
    have en : (combine so (dropExtra this other) other).npol = (combine so (dropExtra this other) other).pols.length := rfl
    have e2' : (combine so (dropExtra this other) other).ax2 = (axisAdd so.num.run this.ax2 other.ax2).labels := by rw [← e3]; rfl
    have e1' : (combine so (dropExtra this other) other).ax1 = (axisAdd so.num.run this.ax1 other.ax1).labels := by rw [← e4]; rfl
    unfold Obj.shapes
    rw [en, eb, e2', e1']
    unfold mergeBasis
    rw [e9, e7]
    unfold Obj.shapes at hs
    cases hp : this.power with
    | true =>
      cases hB : this.basis with
      | none => simp
      | some b =>
        rw [hB] at hs
        simp only [Bool.and_eq_true, decide_eq_true_eq] at hs
        simp only [if_true, decide_true, Bool.true_and, Bool.and_eq_true, decide_eq_true_eq, Option.isSome_some, forall_const]
        rw [hs.2.1, hs.2.2, hlen _ _ hd.ax2 hd'.ax2, hlen _ _ hd.ax1 hd'.ax1]
    | false =>
      cases hB : this.basis with
      | none => simp
      | some b =>
        obtain ⟨b', hb'⟩ := Option.isSome_iff_exists.1 (hb hp (by rw [hB]; rfl))
        rw [hb']
        have q2 : (ax2Ax so (dropExtra this other) other).labels = (axisAdd so.num.run this.ax2 other.ax2).labels := by rw [← e3]; rfl
        have q1 : (ax1Ax so (dropExtra this other) other).labels = (axisAdd so.num.run this.ax1 other.ax1).labels := by rw [← e4]; rfl
        simp [q2, q1]
  unfold add
  by_cases h1 : this.power ≠ other.power ∨ this.healpix ≠ other.healpix
  · rw [if_pos h1]
    simp only [reduceCtorEq, false_iff]
    rintro ⟨a, b, -⟩
    exact h1.elim (fun h => h a) (fun h => h b)
  · rw [if_neg h1]
    simp only [not_or, not_not] at h1
    simp only
    by_cases h2 : (common this.pols other.pols && common this.freqs other.freqs && common this.ax1 other.ax1 && common this.ax2 other.ax2) = true
    · rw [if_pos h2]
      simp only [reduceCtorEq, false_iff]
      rintro ⟨-, -, c, -⟩
      exact c (hcom.1 h2)
    · rw [if_neg h2]
      have h2' := fun hh => h2 (hcom.2 hh)
      cases rc with
      | false => exact ⟨fun _ => ⟨h1.1, h1.2, h2', fun h => nomatch h⟩, fun _ => rfl⟩
      | true =>
        by_cases h3 : (combine so (dropExtra this other) other).shapes = true
        · rw [h3]
          exact ⟨fun _ => ⟨h1.1, h1.2, h2', fun _ => hsh.1 h3⟩, fun _ => rfl⟩
        · have h4 := fun hh => h3 (hsh.2 hh)
          simp only [Bool.not_eq_true] at h3
          rw [h3]
          refine ⟨fun h => (nomatch h), ?_⟩
          rintro ⟨-, -, -, hq⟩
          exact absurd (hq rfl) h4

omit [Zero K] [Zero V] [Zero B] [Zero C] [Zero X] in
theorem argsort_sorted {α L : Type} [LinearOrder L] (key : α → L) (l : List α) (idx : List Nat) (h : IsArgsort (l.map key) idx) :
    ((fancy l idx).map key).Pairwise (· ≤ ·) := by
  have hlt : ∀ i ∈ idx, i < l.length := by
    have := perm_lt h.1
    simpa using this
  have e : (fancy l idx).map key = fancy (l.map key) idx := by
    unfold fancy
    rw [List.map_filterMap]
    apply List.filterMap_congr
    intro i _
    simp
  rw [e]
  unfold fancy
  rw [List.pairwise_filterMap]
  refine h.2.imp ?_
  intro i j hij x hx y hy
  exact hij x y hx hy

/-- Enough for `add_keeps_partial`: both objects have their labels in ascending order. -/
theorem add_inOrder (so : Sorts K) (rc : Bool) (this other r : Obj K V B C X) (h : add so rc this other = (r, none)) (hd : Distinct this) (hd' : Distinct other)
    (hp : if this.power then (this.pols.map (fun p => |p|)).Pairwise (· < ·) ∧ (other.pols.map (fun p => |p|)).Pairwise (· < ·)
      else this.pols.Pairwise (· < ·) ∧ other.pols.Pairwise (· < ·))
    (hf : this.freqs.Pairwise (· < ·) ∧ other.freqs.Pairwise (· < ·)) (h2 : this.ax2.Pairwise (· < ·) ∧ other.ax2.Pairwise (· < ·))
    (h1 : this.ax1.Pairwise (· < ·) ∧ other.ax1.Pairwise (· < ·)) : InOrder other r := by
  obtain ⟨rfl, -⟩ := add_ok so rc this other r h
  obtain ⟨e1, e2, e3, e4, e5, e6, e7, e8, e9, e10⟩ := dropExtra_same this other
  have d := dropExtra_distinct (other := other) hd
  have hnum : ∀ l : List K, ((fancy l (so.num.run l)).map id).Pairwise (· ≤ ·) := fun l => argsort_sorted id l _ (by rw [List.map_id]; exact so.num.sorts l)
  refine ⟨?_, ?_, ?_, ?_⟩
  · by_cases hq : this.power = true
    · rw [if_pos hq] at hp
      refine inOrder_of_sorted _ (polAx_arranges so _) d.pols hd'.pols (fun p => |p|) (fun l => ?_) (by rw [e1]; exact hp.1) hp.2
      refine argsort_sorted (fun p => |p|) l _ ?_
      rw [e9, hq]
      exact so.int.sorts _
    · rw [if_neg hq] at hp
      refine inOrder_of_sorted _ (polAx_arranges so _) d.pols hd'.pols id (fun l => ?_) (by rw [e1, List.map_id]; exact hp.1) (by rw [List.map_id]; exact hp.2)
      refine argsort_sorted id l _ ?_
      rw [e9, List.map_id, if_neg hq]
      exact so.int.sorts _
  · exact inOrder_of_sorted _ (num_arranges so) d.freqs hd'.freqs id hnum (by rw [e2, List.map_id]; exact hf.1) (by rw [List.map_id]; exact hf.2)
  · exact inOrder_of_sorted _ (num_arranges so) d.ax2 hd'.ax2 id hnum (by rw [e3, List.map_id]; exact h2.1) (by rw [List.map_id]; exact h2.2)
  · exact inOrder_of_sorted _ (num_arranges so) d.ax1 hd'.ax1 id hnum (by rw [e4, List.map_id]; exact h1.1) (by rw [List.map_id]; exact h1.2)

/-- Where the frequencies of the other object are not in the order of the result, some frequency is given the passband and the values of another one. -/
theorem add_freqs_swapped (so : Sorts K) (rc : Bool) (this other r : Obj K V B C X) (hd : Distinct this) (hd' : Distinct other)
    (h : add so rc this other = (r, none)) (hf : ¬other.freqs.Sublist r.freqs) :
    ∃ f ∈ other.freqs, ∃ g ∈ other.freqs, f ≠ g ∧ (∀ b, HasBand r f b ↔ HasBand other g b) ∧
      (other.pols.Sublist r.pols → other.ax2.Sublist r.ax2 → other.ax1.Sublist r.ax1 →
        ∀ p ∈ other.pols, ∀ y ∈ other.ax2, ∀ x ∈ other.ax1, ∀ v, Has r p f y x v ↔ Has other p g y x v) := by
  obtain ⟨hu, hdr⟩ := add_labels so rc this other r hd hd' h
  obtain ⟨rfl, -⟩ := add_ok so rc this other r h
  obtain ⟨e1, e2, e3, e4, e5, e6, e7, e8, e9, e10⟩ := dropExtra_same this other
  have d := dropExtra_distinct (other := other) hd
  generalize hT : dropExtra this other = T at *
  obtain ⟨j, m, f, g, hj, hm, hg, hfB, hne⟩ := source_swapped so.num.run (num_arranges so) d.freqs hd'.freqs hf
  refine ⟨f, hfB, g, List.mem_of_getElem? hg, hne, ?_, ?_⟩
  · intro b
    have e : (combine so T other).bandpass j = other.bandpass m := by
      show mergeFreq (freqAx so T other) _ _ _ _ j = _
      unfold mergeFreq
      rw [show source (freqAx so T other) j = some m from hm]
    constructor
    · rintro ⟨j', hj', rfl⟩
      rw [nodup_inj hdr.freqs hj' hj, e]
      exact ⟨m, hg, rfl⟩
    · rintro ⟨m', hm', rfl⟩
      rw [nodup_inj hd'.freqs hm' hg, ← e]
      exact ⟨j, hj, rfl⟩
  · intro sp sy sx p hp y hy x hx v
    obtain ⟨i, hi⟩ := List.getElem?_of_mem ((hu.pols p).2 (Or.inr hp))
    obtain ⟨k, hk⟩ := List.getElem?_of_mem ((hu.ax2 y).2 (Or.inr hy))
    obtain ⟨l, hl⟩ := List.getElem?_of_mem ((hu.ax1 x).2 (Or.inr hx))
    obtain ⟨i', hi'⟩ := (source_at (A := T.pols) (B := other.pols) (fun l => so.int.run (if T.power then l.map (fun p => |p|) else l)) i p hi).2 hp
    obtain ⟨k', hk'⟩ := (source_at (A := T.ax2) (B := other.ax2) so.num.run k y hk).2 hy
    obtain ⟨l', hl'⟩ := (source_at (A := T.ax1) (B := other.ax1) so.num.run l x hl).2 hx
    have gi := source_get _ (polAx_arranges so _) d.pols hd'.pols i i' p hi hi' sp
    have gk := source_get _ (num_arranges so) d.ax2 hd'.ax2 k k' y hk hk' sy
    have gl := source_get _ (num_arranges so) d.ax1 hd'.ax1 l l' x hl hl' sx
    have e : (combine so T other).data i j k l = other.data i' m k' l' := by
      show mergeData (polAx so T other) (freqAx so T other) (ax2Ax so T other) (ax1Ax so T other) T other i j k l = _
      unfold mergeData
      rw [show source (polAx so T other) i = some i' from hi', show source (freqAx so T other) j = some m from hm,
        show source (ax2Ax so T other) k = some k' from hk', show source (ax1Ax so T other) l = some l' from hl']
    constructor
    · rintro ⟨i2, j2, k2, l2, a1, a2, a3, a4, rfl⟩
      rw [nodup_inj hdr.pols a1 hi, nodup_inj hdr.freqs a2 hj, nodup_inj hdr.ax2 a3 hk, nodup_inj hdr.ax1 a4 hl, e]
      exact ⟨i', m, k', l', gi, hg, gk, gl, rfl⟩
    · rintro ⟨i2, j2, k2, l2, a1, a2, a3, a4, rfl⟩
      rw [nodup_inj hd'.pols a1 gi, nodup_inj hd'.freqs a2 hg, nodup_inj hd'.ax2 a3 gk, nodup_inj hd'.ax1 a4 gl, ← e]
      exact ⟨i, j, k, l, hi, hj, hk, hl, rfl⟩

/-- Where both objects have a frequency with different passbands, the passband of this object is lost. -/
theorem add_band_lost (so : Sorts K) (rc : Bool) (this other r : Obj K V B C X) (hd : Distinct this) (hd' : Distinct other)
    (h : add so rc this other = (r, none)) (ho : InOrder other r) (f b b' : K) (hb : HasBand this f b) (hb' : HasBand other f b') (hne : b ≠ b') :
    HasBand r f b' ∧ ¬HasBand r f b := by
  have hk := (add_keeps_partial so rc this other r hd hd' h ho).2.1
  refine ⟨(hk f b').2 (Or.inl hb'), fun hc => ?_⟩
  obtain ⟨j, hj, rfl⟩ := hb'
  rcases (hk f b).1 hc with ⟨m, hm, rfl⟩ | ⟨-, hn⟩
  · exact hne (by rw [nodup_inj hd'.freqs hj hm])
  · exact hn (List.mem_of_getElem? hj)

/-- A refused addition has already dropped the arrays that the other object does not have. -/
theorem add_refused_drops (so : Sorts K) (rc : Bool) (this other : Obj K V B C X) (hk : this.power = other.power ∧ this.healpix = other.healpix)
    (hov : ∃ p f y x, (∃ v, Has this p f y x v) ∧ ∃ v, Has other p f y x v) (hn : other.extra = none) :
    (add so rc this other).2 = some .overlap ∧ (add so rc this other).1 = { this with extra := none } := by
  have h2 : (common this.pols other.pols && common this.freqs other.freqs && common this.ax1 other.ax1 && common this.ax2 other.ax2) = true := by
    obtain ⟨p, f, y, x, ⟨v, i, j, k, l, a1, a2, a3, a4, -⟩, ⟨w, i', j', k', l', b1, b2, b3, b4, -⟩⟩ := hov
    simp only [Bool.and_eq_true, common_iff]
    exact ⟨⟨⟨⟨p, List.mem_of_getElem? a1, List.mem_of_getElem? b1⟩, ⟨f, List.mem_of_getElem? a2, List.mem_of_getElem? b2⟩⟩,
      ⟨x, List.mem_of_getElem? a4, List.mem_of_getElem? b4⟩⟩, ⟨y, List.mem_of_getElem? a3, List.mem_of_getElem? b3⟩⟩
  have hd : dropExtra this other = { this with extra := none } := by
    unfold dropExtra
    rw [hn]
    rfl
  unfold add
  rw [if_neg (by simp [hk])]
  simp only
  rw [if_pos h2, hd]
  exact ⟨rfl, rfl⟩

/-- Coupling between the elements of a phased array. -/
theorem add_coupling_partial (so : Sorts K) (rc : Bool) (this other r : Obj K V B C X) (hd : Distinct this) (hd' : Distinct other)
    (h : add so rc this other = (r, none)) (sp : other.pols.Sublist r.pols) (sf : other.freqs.Sublist r.freqs)
    (hb : this.coupling.isSome = true) (hb' : other.coupling.isSome = true) :
    ∀ p p' f c, HasCoupling r p p' f c ↔ HasCoupling other p p' f c ∨ (HasCoupling this p p' f c ∧ ¬(p ∈ other.pols ∧ p' ∈ other.pols ∧ f ∈ other.freqs)) ∨
      (p ∈ r.pols ∧ p' ∈ r.pols ∧ f ∈ r.freqs ∧ ¬(p ∈ other.pols ∧ p' ∈ other.pols ∧ f ∈ other.freqs) ∧
        ¬(p ∈ this.pols ∧ p' ∈ this.pols ∧ f ∈ this.freqs) ∧ c = 0) := by
  obtain ⟨hu, hdr⟩ := add_labels so rc this other r hd hd' h
  obtain ⟨rfl, -⟩ := add_ok so rc this other r h
  obtain ⟨e1, e2, e3, e4, e5, e6, e7, e8, e9, e10⟩ := dropExtra_same this other
  have d := dropExtra_distinct (other := other) hd
  generalize hT : dropExtra this other = T at *
  obtain ⟨b, hb'⟩ := Option.isSome_iff_exists.1 hb'
  obtain ⟨a, hb⟩ := Option.isSome_iff_exists.1 hb
  obtain ⟨g, hr, hg⟩ : ∃ g, (combine so T other).coupling = some g ∧ ∀ (i i' j : Nat) (p p' : Int) (f : K), (combine so T other).pols[i]? = some p →
      (combine so T other).pols[i']? = some p' → (combine so T other).freqs[j]? = some f →
      ((p ∈ other.pols ∧ p' ∈ other.pols ∧ f ∈ other.freqs) → ∃ m m' n : Nat, other.pols[m]? = some p ∧ other.pols[m']? = some p' ∧ other.freqs[n]? = some f ∧
        g i i' j = b m m' n) ∧
      (¬(p ∈ other.pols ∧ p' ∈ other.pols ∧ f ∈ other.freqs) → ((p ∈ T.pols ∧ p' ∈ T.pols ∧ f ∈ T.freqs) →
        ∃ m m' n : Nat, T.pols[m]? = some p ∧ T.pols[m']? = some p' ∧ T.freqs[n]? = some f ∧ g i i' j = a m m' n) ∧
        (¬(p ∈ T.pols ∧ p' ∈ T.pols ∧ f ∈ T.freqs) → g i i' j = 0)) := by
    refine ⟨_, (by
      show mergeCoupling _ _ T other = some _
      unfold mergeCoupling
      rw [e8, hb, hb']), ?_⟩
    intro i i' j p p' f hi hi' hj
    have s1 := source_at (A := T.pols) (B := other.pols) (fun l => so.int.run (if T.power then l.map (fun p => |p|) else l)) i p hi
    have s2 := source_at (A := T.pols) (B := other.pols) (fun l => so.int.run (if T.power then l.map (fun p => |p|) else l)) i' p' hi'
    have s3 := source_at (A := T.freqs) (B := other.freqs) so.num.run j f hj
    constructor
    · rintro ⟨h1, h2, h3⟩
      obtain ⟨m, hm⟩ := s1.2 h1
      obtain ⟨m', hm'⟩ := s2.2 h2
      obtain ⟨n, hn⟩ := s3.2 h3
      refine ⟨m, m', n, source_get _ (polAx_arranges so _) d.pols hd'.pols i m p hi hm sp, source_get _ (polAx_arranges so _) d.pols hd'.pols i' m' p' hi' hm' sp,
        source_get _ (num_arranges so) d.freqs hd'.freqs j n f hj hn sf, ?_⟩
      rw [show source (polAx so T other) i = some m from hm, show source (polAx so T other) i' = some m' from hm', show source (freqAx so T other) j = some n from hn]
    · intro hn
      split
      · rename_i w1 w2 w3
        refine absurd ⟨?_, ?_, ?_⟩ hn
        · by_contra h; rw [show source (polAx so T other) i = none from s1.1 h] at w1; cases w1
        · by_contra h; rw [show source (polAx so T other) i' = none from s2.1 h] at w2; cases w2
        · by_contra h; rw [show source (freqAx so T other) j = none from s3.1 h] at w3; cases w3
      · obtain ⟨ap, ap'⟩ := padSort_at _ (polAx_arranges so T.power) (A := T.pols) (B := other.pols) (fun _ _ => (0 : C))
          (fun i => padSort (polAx so T other) T.pols.length (fun _ => 0) (fun i' => padSort (freqAx so T other) T.freqs.length 0 (a i i'))) i p hi
        by_cases h3 : p ∈ T.pols
        · obtain ⟨k', hk', e3⟩ := ap h3
          rw [show padSort (polAx so T other) T.pols.length _ _ i = _ from e3]
          obtain ⟨aq, aq'⟩ := padSort_at _ (polAx_arranges so T.power) (A := T.pols) (B := other.pols) (fun _ => (0 : C))
            (fun i' => padSort (freqAx so T other) T.freqs.length 0 (a k' i')) i' p' hi'
          by_cases h4 : p' ∈ T.pols
          · obtain ⟨l', hl', e4⟩ := aq h4
            rw [show padSort (polAx so T other) T.pols.length _ _ i' = _ from e4]
            obtain ⟨af, af'⟩ := padSort_at _ (num_arranges so) (A := T.freqs) (B := other.freqs) (0 : C) (a k' l') j f hj
            by_cases h5 : f ∈ T.freqs
            · obtain ⟨n', hn', e5⟩ := af h5
              exact ⟨fun _ => ⟨k', l', n', hk', hl', hn', e5⟩, fun h => absurd ⟨h3, h4, h5⟩ h⟩
            · exact ⟨fun h => absurd h.2.2 h5, fun _ => af' h5⟩
          · exact ⟨fun h => absurd h.2.1 h4, fun _ => congrFun (aq' h4) j⟩
        · exact ⟨fun h => absurd h.1 h3, fun _ => congrFun (congrFun (ap' h3) i') j⟩
  rw [e1, e2] at hg
  intro p p' f v
  unfold HasCoupling
  rw [hr, hb, hb']
  simp only [Option.some.injEq, exists_eq_left']
  constructor
  · rintro ⟨i, i', j, hi, hi', hj, rfl⟩
    obtain ⟨k1, k2⟩ := hg i i' j p p' f hi hi' hj
    by_cases hO : p ∈ other.pols ∧ p' ∈ other.pols ∧ f ∈ other.freqs
    · obtain ⟨m, m', n, hm, hm', hn, e⟩ := k1 hO
      exact Or.inl ⟨m, m', n, hm, hm', hn, e.symm⟩
    · by_cases hT : p ∈ this.pols ∧ p' ∈ this.pols ∧ f ∈ this.freqs
      · obtain ⟨m, m', n, hm, hm', hn, e⟩ := (k2 hO).1 hT
        exact Or.inr (Or.inl ⟨⟨m, m', n, hm, hm', hn, e.symm⟩, hO⟩)
      · exact Or.inr (Or.inr ⟨List.mem_of_getElem? hi, List.mem_of_getElem? hi', List.mem_of_getElem? hj, hO, hT, (k2 hO).2 hT⟩)
  · rintro (⟨m1, m2, n', hm1, hm2, hn', rfl⟩ | ⟨⟨m1, m2, n', hm1, hm2, hn', rfl⟩, hO⟩ | ⟨i1, i2, i3, hO, hT, rfl⟩)
    · have hO : p ∈ other.pols ∧ p' ∈ other.pols ∧ f ∈ other.freqs := ⟨List.mem_of_getElem? hm1, List.mem_of_getElem? hm2, List.mem_of_getElem? hn'⟩
      obtain ⟨i, hi⟩ := List.getElem?_of_mem ((hu.pols p).2 (Or.inr hO.1))
      obtain ⟨i', hi'⟩ := List.getElem?_of_mem ((hu.pols p').2 (Or.inr hO.2.1))
      obtain ⟨j, hj⟩ := List.getElem?_of_mem ((hu.freqs f).2 (Or.inr hO.2.2))
      obtain ⟨m, m', n, hm, hm', hn, e⟩ := (hg i i' j p p' f hi hi' hj).1 hO
      rw [nodup_inj hd'.pols hm1 hm, nodup_inj hd'.pols hm2 hm', nodup_inj hd'.freqs hn' hn, ← e]
      exact ⟨i, i', j, hi, hi', hj, rfl⟩
    · have hT : p ∈ this.pols ∧ p' ∈ this.pols ∧ f ∈ this.freqs := ⟨List.mem_of_getElem? hm1, List.mem_of_getElem? hm2, List.mem_of_getElem? hn'⟩
      obtain ⟨i, hi⟩ := List.getElem?_of_mem ((hu.pols p).2 (Or.inl hT.1))
      obtain ⟨i', hi'⟩ := List.getElem?_of_mem ((hu.pols p').2 (Or.inl hT.2.1))
      obtain ⟨j, hj⟩ := List.getElem?_of_mem ((hu.freqs f).2 (Or.inl hT.2.2))
      obtain ⟨m, m', n, hm, hm', hn, e⟩ := ((hg i i' j p p' f hi hi' hj).2 hO).1 hT
      rw [nodup_inj hd.pols hm1 hm, nodup_inj hd.pols hm2 hm', nodup_inj hd.freqs hn' hn, ← e]
      exact ⟨i, i', j, hi, hi', hj, rfl⟩
    · obtain ⟨i, hi⟩ := List.getElem?_of_mem i1
      obtain ⟨i', hi'⟩ := List.getElem?_of_mem i2
      obtain ⟨j, hj⟩ := List.getElem?_of_mem i3
      exact ⟨i, i', j, hi, hi', hj, ((hg i i' j p p' f hi hi' hj).2 hO).2 hT⟩

end Verif.Beam
