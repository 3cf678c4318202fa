import Verif.Compress.Times

/-! C130: what a row is after averaging over redundant baselines. -/
namespace Verif.Compress
open Verif.Np

variable {K V : Type} [Field K] [LinearOrder K] [AddCommGroup V] [Module K V]

/-- The baseline of a row. -/
def blOf (o : Obj K V) (r : Nat) : Int := o.bl.getD r 0

/-- The rows of a group of baselines at one time. -/
def groupAt (o : Obj K V) (gp : List Int) (t : K) : List Nat :=
  (List.range o.bl.length).filter (fun r => decide (blOf o r ∈ gp) && decide (o.time r = t))

/-- The visibility of a row, seen in the direction of baseline `b`. -/
def seen (conj : V →ₗ[K] V) (o : Obj K V) (conjs : List Int) (b : Int) (f p r : Nat) : V :=
  if (blOf o r ∈ conjs ↔ b ∈ conjs) then o.data r f p else conj (o.data r f p)

theorem mem_rows {o : Obj K V} {b : Int} {r : Nat} : r ∈ rows o b ↔ r < o.bl.length ∧ blOf o r = b := by
  unfold rows blOf
  rw [mem_whereIdx]
  constructor
  · rintro ⟨x, hx, hb⟩
    obtain ⟨hr, -⟩ := List.getElem?_eq_some_iff.1 hx
    refine ⟨hr, ?_⟩
    rw [List.getD_eq_getElem?_getD, hx]
    simpa using hb
  · rintro ⟨hr, hb⟩
    rw [List.getD_eq_getElem?_getD, List.getElem?_eq_getElem hr] at hb
    exact ⟨_, List.getElem?_eq_getElem hr, by simpa using hb⟩

theorem mem_members {o : Obj K V} {conjs gp : List Int} {m : Nat × Bool} :
    m ∈ members o conjs gp ↔ m.1 < o.bl.length ∧ blOf o m.1 ∈ gp ∧ m.2 = conjs.contains (blOf o m.1) := by
  obtain ⟨r, c⟩ := m
  simp only [members, List.mem_append, List.mem_map, List.mem_flatMap, List.mem_filter, mem_rows, Prod.mk.injEq]
  constructor
  · rintro (⟨r', ⟨b, ⟨hb, hc⟩, hr, hrb⟩, rfl, rfl⟩ | ⟨r', ⟨b, ⟨hb, hc⟩, hr, hrb⟩, rfl, rfl⟩)
    · subst hrb
      exact ⟨hr, hb, by simpa using hc⟩
    · subst hrb
      exact ⟨hr, hb, by simpa using hc⟩
  · rintro ⟨hr, hb, hc⟩
    cases c
    · exact Or.inl ⟨r, ⟨_, ⟨hb, by rw [← hc]; rfl⟩, hr, rfl⟩, rfl, rfl⟩
    · exact Or.inr ⟨r, ⟨_, ⟨hb, hc.symm⟩, hr, rfl⟩, rfl, rfl⟩

theorem rows_nodup (o : Obj K V) : ∀ (l : List Int), l.Nodup → (l.flatMap (rows o)).Nodup := by
  intro l hl
  rw [List.nodup_flatMap]
  refine ⟨fun b _ => (whereIdx_sorted _ _).imp (fun h => by omega), ?_⟩
  refine hl.imp ?_
  intro a b hab r ha hb
  rw [mem_rows] at ha hb
  exact hab (ha.2.symm.trans hb.2)

theorem members_nodup (o : Obj K V) (conjs gp : List Int) (hg : gp.Nodup) : (members o conjs gp).Nodup := by
  unfold members
  rw [List.nodup_append]
  refine ⟨(rows_nodup o _ (hg.filter _)).map (fun a b h => by simpa using h), (rows_nodup o _ (hg.filter _)).map (fun a b h => by simpa using h), ?_⟩
  intro a ha b hb hab
  rw [List.mem_map] at ha hb
  obtain ⟨x, -, rfl⟩ := ha
  obtain ⟨y, -, rfl⟩ := hb
  simp at hab

variable [IsStrictOrderedRing K]

/-- What the averaging is applied to. -/
structure Ok (clusters : List K → List (List Nat)) (o : Obj K V) (tol : K) (gps : List (List Int)) : Prop where
  tolPos : 0 < tol
  /-- the groups are non-empty and no baseline is in two groups or twice in one (C24). -/
  ne : ∀ gp ∈ gps, gp ≠ []
  nodup : gps.flatten.Nodup
  /-- no baseline has two rows at one time. -/
  once : ∀ r s, r < o.bl.length → s < o.bl.length → blOf o r = blOf o s → o.time r = o.time s → r = s
  /-- different times are not closer than the tolerance. -/
  apart : ∀ r s, r < o.bl.length → s < o.bl.length → o.time r = o.time s ∨ tol ≤ |o.time r - o.time s|
  /-- what `find_clusters` gives (`clusters_split`). -/
  clusters : ∀ ts, ts ≠ [] → Apart tol ts → Splits ts (clusters ts)

omit [LinearOrder K] [IsStrictOrderedRing K] in
theorem sum_const (l : List Nat) (u : Nat → K) (t : K) (h : ∀ i ∈ l, u i = t) : (l.map u).sum = (l.length : K) * t := by
  induction l with
  | nil => simp
  | cons a l ih =>
    rw [List.map_cons, List.sum_cons, ih (fun i hi => h i (List.mem_cons_of_mem _ hi)), h a List.mem_cons_self, List.length_cons]
    push_cast; ring

theorem avgTime_const (ts : List K) (g : List Nat) (hne : g ≠ []) (t : K) (h : ∀ i ∈ g, ts.getD i 0 = t) : avgTime ts g = t := by
  unfold avgTime
  rw [sum_const g _ t h, mul_comm, mul_div_assoc, div_self, mul_one]
  have : g.length ≠ 0 := by simpa using hne
  exact_mod_cast this

variable {clusters : List K → List (List Nat)} {o : Obj K V} {tol : K} {conjs : List Int} {gps : List (List Int)}

omit [IsStrictOrderedRing K] in
theorem group_eq (h : Ok clusters o tol gps) {a b : List Int} (ha : a ∈ gps) (hb : b ∈ gps) (x : Int) (hxa : x ∈ a) (hxb : x ∈ b) : a = b := by
  have hd := List.pairwise_iff_getElem.1 (List.nodup_flatten.1 h.nodup).2
  obtain ⟨i, hi, rfl⟩ := List.getElem_of_mem ha
  obtain ⟨j, hj, rfl⟩ := List.getElem_of_mem hb
  rcases Nat.lt_trichotomy i j with hij | hij | hij
  · exact absurd hxb (hd i j hi hj hij hxa)
  · subst hij; rfl
  · exact absurd hxa (hd j i hj hi hij hxb)

/-- Times of the members of a group. -/
def gtimes (o : Obj K V) (conjs gp : List Int) : List K := (members o conjs gp).map (fun m => o.time m.1)

omit [IsStrictOrderedRing K] in
theorem gtimes_apart (h : Ok clusters o tol gps) (gp : List Int) : Apart tol (gtimes o conjs gp) := by
  intro a ha b hb
  rw [gtimes, List.mem_map] at ha hb
  obtain ⟨m, hm, rfl⟩ := ha
  obtain ⟨k, hk, rfl⟩ := hb
  exact h.apart _ _ (mem_members.1 hm).1 (mem_members.1 hk).1

omit [LinearOrder K] [IsStrictOrderedRing K] [AddCommGroup V] [Module K V] in
theorem gtimes_get (gp : List Int) (i : Nat) (m : Nat × Bool) (hm : (members o conjs gp)[i]? = some m) : (gtimes o conjs gp).getD i 0 = o.time m.1 := by
  rw [gtimes, List.getD_eq_getElem?_getD, List.getElem?_map, hm]; rfl

/-- One cluster of times and the row it is stored in. -/
theorem cluster_row (h : Ok clusters o tol gps) (gp : List Int) (hgp : gp ∈ gps) (hs : Splits (gtimes o conjs gp) (clusters (gtimes o conjs gp)))
    (g : List Nat) (hg : g ∈ clusters (gtimes o conjs gp)) (r : Nat) (ht : target o tol (gp.headD 0) (avgTime (gtimes o conjs gp) g) = some r) :
    r < o.bl.length ∧ blOf o r = gp.headD 0 ∧
      (pick (members o conjs gp) g).Perm ((groupAt o gp (o.time r)).map (fun s => (s, conjs.contains (blOf o s)))) := by
  obtain ⟨hne, hi⟩ := hs.2 g hg
  have hlen : (gtimes o conjs gp).length = (members o conjs gp).length := by simp [gtimes]
  have hgm : ∀ i ∈ g, i < (gtimes o conjs gp).length := fun i hi' =>
    List.mem_range.1 (hs.1.mem_iff.1 (List.mem_flatten.2 ⟨g, hg, hi'⟩))
  obtain ⟨i0, hi0⟩ := List.exists_mem_of_ne_nil g hne
  have havg : avgTime (gtimes o conjs gp) g = (gtimes o conjs gp).getD i0 0 :=
    avgTime_const _ g hne _ (fun i hi' => ((hi i0 hi0 i (hgm i hi')).1 hi').symm)
  have hm0 : ∃ m, (members o conjs gp)[i0]? = some m := ⟨_, List.getElem?_eq_getElem (hlen ▸ hgm i0 hi0)⟩
  obtain ⟨m0, hm0⟩ := hm0
  have hm0' := mem_members.1 (List.mem_of_getElem? hm0)
  rw [havg, gtimes_get gp i0 m0 hm0] at ht
  unfold target at ht
  split at ht
  next r' heq =>
    cases ht
    have hr : r ∈ (rows o (gp.headD 0)).filter (fun r => decide (|o.time r - o.time m0.1| < tol)) := by rw [heq]; exact List.mem_singleton_self _
    rw [List.mem_filter, mem_rows, decide_eq_true_eq] at hr
    obtain ⟨⟨hrl, hrb⟩, hrt⟩ := hr
    have htime : o.time r = o.time m0.1 := by
      rcases h.apart r m0.1 hrl hm0'.1 with h1 | h1
      · exact h1
      · exact absurd hrt (not_lt.2 h1)
    refine ⟨hrl, hrb, ?_⟩
    have hgn : g.Nodup := (List.nodup_flatten.1 (hs.1.nodup_iff.2 List.nodup_range)).1 g hg
    have hmn : (members o conjs gp).Nodup := members_nodup o conjs gp ((List.nodup_flatten.1 h.nodup).1 gp hgp)
    rw [List.perm_ext_iff_of_nodup]
    · intro m
      unfold pick groupAt
      rw [List.mem_filterMap, List.mem_map]
      constructor
      · rintro ⟨i, hig, him⟩
        have hmm := mem_members.1 (List.mem_of_getElem? him)
        refine ⟨m.1, ?_, ?_⟩
        · rw [List.mem_filter, List.mem_range, Bool.and_eq_true, decide_eq_true_eq, decide_eq_true_eq]
          refine ⟨hmm.1, hmm.2.1, ?_⟩
          rw [htime, ← gtimes_get gp i m him, ← gtimes_get gp i0 m0 hm0]
          exact ((hi i0 hi0 i (hgm i hig)).1 hig).symm
        · rw [← hmm.2.2]
      · rintro ⟨s, hs', rfl⟩
        rw [List.mem_filter, List.mem_range, Bool.and_eq_true, decide_eq_true_eq, decide_eq_true_eq] at hs'
        have hsm : (s, conjs.contains (blOf o s)) ∈ members o conjs gp := mem_members.2 ⟨hs'.1, hs'.2.1, rfl⟩
        obtain ⟨i, him⟩ := List.getElem?_of_mem hsm
        refine ⟨i, ?_, him⟩
        have hil : i < (gtimes o conjs gp).length := by
          rw [hlen]; exact (List.getElem?_eq_some_iff.1 him).1
        rw [hi i0 hi0 i hil, gtimes_get gp i0 m0 hm0, gtimes_get gp i _ him, ← htime, hs'.2.2]
    · unfold pick
      refine List.Nodup.filterMap ?_ hgn
      intro a b x hxa hxb
      rw [Option.mem_def] at hxa hxb
      have ha := List.getElem?_eq_some_iff.1 hxa
      exact (List.getElem?_inj ha.1 hmn).1 (hxa.trans hxb.symm)
    · refine List.Nodup.map (fun a b hab => (Prod.mk.inj hab).1) ?_
      exact List.nodup_range.filter _
  next => cases ht

/-- Every row of the first baseline of a group is stored. -/
theorem target_exists (h : Ok clusters o tol gps) (gp : List Int) (hgp : gp ∈ gps) (hs : Splits (gtimes o conjs gp) (clusters (gtimes o conjs gp)))
    (r : Nat) (hr : r < o.bl.length) (hb : blOf o r = gp.headD 0) :
    ∃ g ∈ clusters (gtimes o conjs gp), target o tol (gp.headD 0) (avgTime (gtimes o conjs gp) g) = some r := by
  have hlen : (gtimes o conjs gp).length = (members o conjs gp).length := by simp [gtimes]
  have hhead : gp.headD 0 ∈ gp := by
    cases gp with
    | nil => exact absurd rfl (h.ne _ hgp)
    | cons a l => exact List.mem_cons_self
  have hm : (r, conjs.contains (blOf o r)) ∈ members o conjs gp := mem_members.2 ⟨hr, hb ▸ hhead, rfl⟩
  obtain ⟨i, him⟩ := List.getElem?_of_mem hm
  have hil : i < (gtimes o conjs gp).length := by rw [hlen]; exact (List.getElem?_eq_some_iff.1 him).1
  obtain ⟨g, hg, hig⟩ := List.mem_flatten.1 (hs.1.mem_iff.2 (List.mem_range.2 hil))
  refine ⟨g, hg, ?_⟩
  obtain ⟨hne, hi⟩ := hs.2 g hg
  have hgm : ∀ i ∈ g, i < (gtimes o conjs gp).length := fun i hi' =>
    List.mem_range.1 (hs.1.mem_iff.1 (List.mem_flatten.2 ⟨g, hg, hi'⟩))
  have havg : avgTime (gtimes o conjs gp) g = o.time r := by
    rw [avgTime_const _ g hne ((gtimes o conjs gp).getD i 0) (fun j hj => ((hi i hig j (hgm j hj)).1 hj).symm), gtimes_get gp i _ him]
  have hl : (rows o (gp.headD 0)).filter (fun s => decide (|o.time s - o.time r| < tol)) = [r] := by
    apply strictSorted_ext
    · exact (whereIdx_sorted _ _).filter _
    · exact List.pairwise_singleton _ _
    · intro s
      rw [List.mem_filter, mem_rows, decide_eq_true_eq, List.mem_singleton]
      constructor
      · rintro ⟨⟨hsl, hsb⟩, ht⟩
        rcases h.apart s r hsl hr with h1 | h1
        · exact h.once s r hsl hr (hsb.trans hb.symm) h1
        · exact absurd ht (not_lt.2 h1)
      · rintro rfl
        exact ⟨⟨hr, hb⟩, by rw [sub_self, abs_zero]; exact h.tolPos⟩
  unfold target
  rw [havg, hl]

end Verif.Compress
