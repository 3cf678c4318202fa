import Verif.Concat.Model

/-!
C57: phase centers of rows put together by `fast_concat`.
-/
namespace Verif.Concat
open Verif.PhaseCat

/-- A consistent object with well-formed entries. -/
def Good (c : Consts) (s : St) : Prop := Consistent s ∧ ∀ k e, (k, e) ∈ s.cat → WellFormed c e

theorem foldlM_inv {σ ι ε : Type} (Inv : σ → Prop) (f : σ → ι → Except ε σ) (h : ∀ s i, Inv s → ∃ s', f s i = .ok s' ∧ Inv s') :
    ∀ (l : List ι) (s : σ), Inv s → ∃ s', l.foldlM f s = .ok s' ∧ Inv s' := by
  intro l
  induction l with
  | nil => intro s hs; exact ⟨s, rfl, hs⟩
  | cons i l ih =>
    intro s hs
    obtain ⟨t, ht, hi⟩ := h s i hs
    obtain ⟨u, hu, hj⟩ := ih t hi
    refine ⟨u, ?_, hj⟩
    rw [List.foldlM_cons, ht]
    exact hu

theorem foldlM_preserves {σ ι ε : Type} (Inv : σ → Prop) (f : σ → ι → Except ε σ) (l : List ι)
    (h : ∀ s, ∀ i ∈ l, ∀ s', Inv s → f s i = .ok s' → Inv s') : ∀ (s s' : σ), Inv s → l.foldlM f s = .ok s' → Inv s' := by
  induction l with
  | nil => intro s s' hs hf; cases hf; exact hs
  | cons i l ih =>
    intro s s' hs hf
    rw [List.foldlM_cons] at hf
    cases ht : f s i with
    | error e => rw [ht] at hf; cases hf
    | ok t =>
      rw [ht] at hf
      exact ih (fun s j hj => h s j (by simp [hj])) t s' (h s i (by simp) t hs ht) hf

theorem updateId_entries {pop : Pop} {s s' : St} {k : Int} {newId : Option Int} {reserved : List Int}
    (h : updateId pop s k newId reserved = .ok s') (P : Entry → Prop) (hP : ∀ k e, (k, e) ∈ s.cat → P e) :
    ∀ k e, (k, e) ∈ s'.cat → P e := by
  unfold updateId at h
  split at h
  · cases h
  · split at h
    · cases h
    · rename_i n _ _ e he
      cases h
      have hmem : ∃ j, (j, e) ∈ s.cat := by
        unfold PhaseCat.get at he
        rw [Option.map_eq_some_iff] at he
        obtain ⟨⟨j, e'⟩, hf, rfl⟩ := he
        exact ⟨j, List.mem_of_find?_eq_some hf⟩
      intro j x hx
      unfold put at hx
      split at hx
      · simp only [List.mem_map] at hx
        obtain ⟨p, hp, hpe⟩ := hx
        split at hpe
        · cases hpe; obtain ⟨j', hj'⟩ := hmem; exact hP _ _ hj'
        · subst hpe; exact hP _ _ ((List.mem_filter.1 hp).1)
      · simp only [List.mem_append, List.mem_singleton, Prod.mk.injEq] at hx
        rcases hx with hx | ⟨-, rfl⟩
        · exact hP _ _ ((List.mem_filter.1 hx).1)
        · obtain ⟨j', hj'⟩ := hmem; exact hP _ _ hj'

theorem adopt_wf {c : Consts} {ign : Bool} {r e : Entry} (h : WellFormed c e) : WellFormed c (adopt ign r e) :=
  ⟨h.type, h.lon, h.lat, h.frame, h.pm, h.times, h.ephem, h.scalars, h.horizontal, h.zenith⟩

theorem absorb_entries {c : Consts} {pop : Pop} {ign : Bool} {s s' : St} {r : Int × Entry} (h : absorb c pop ign s r = .ok s')
    (hs : ∀ k e, (k, e) ∈ s.cat → WellFormed c e) : ∀ k e, (k, e) ∈ s'.cat → WellFormed c e := by
  unfold absorb at h
  split at h
  · split at h
    · cases h
    · rename_i s1 h1
      cases h
      have hw := updateId_entries h1 (WellFormed c) hs
      intro k e hk
      simp only [modifyAt, List.mem_map] at hk
      obtain ⟨p, hp, hpe⟩ := hk
      split at hpe
      · cases hpe; exact adopt_wf (hw _ _ hp)
      · subst hpe; exact hw _ _ hp
  · unfold add at h
    cases hg : genEntry c r.2 with
    | error e => rw [hg] at h; cases h
    | ok e =>
      have hwf := entry_wellformed c r.2 e hg
      rw [hg] at h
      cases hid : addId pop s (some r.1) false with
      | error x => simp only [hid] at h; cases h
      | ok k =>
        simp only [hid] at h
        have h' : (PhaseCat.insert c s k e).1 = s' := by
          injection h
        subst h'
        unfold PhaseCat.insert
        split
        · exact hs
        · intro j x hx
          simp only at hx
          unfold put at hx
          split at hx
          · simp only [List.mem_map] at hx
            obtain ⟨p, hp, hpe⟩ := hx
            split at hpe
            · cases hpe; exact hwf
            · subst hpe; exact hs _ _ hp
          · simp only [List.mem_append, List.mem_singleton, Prod.mk.injEq] at hx
            rcases hx with hx | ⟨-, rfl⟩
            · exact hs _ _ hx
            · exact hwf

theorem consolidate_good (c : Consts) (pop : Pop) (ign : Bool) (hr : 0 ≤ c.radTol) {s o : St} (hs : Good c s) (ho : Good c o) :
    ∃ s', consolidate c pop ign o.cat s = .ok s' ∧ Good c s' ∧ SameRows ign s s' := by
  obtain ⟨s', h1, h2, h3, h4, -⟩ := consolidate_keeps c pop ign hr o.cat s hs.1 ho.1.distinct ho.2
  refine ⟨s', h1, ⟨h2, ?_⟩, h3, h4⟩
  unfold consolidate at h1
  cases hc : clearIds pop (keys o.cat) s with
  | error e => rw [hc] at h1; cases h1
  | ok t =>
    rw [hc] at h1
    have ht : ∀ k e, (k, e) ∈ t.cat → WellFormed c e := by
      unfold clearIds at hc
      exact foldlM_preserves (fun s : St => ∀ k e, (k, e) ∈ s.cat → WellFormed c e) _ _
        (fun s i _ s' hi hf => updateId_entries hf (WellFormed c) hi) s t hs.2 hc
    exact foldlM_preserves (fun s : St => ∀ k e, (k, e) ∈ s.cat → WellFormed c e) (absorb c pop ign) o.cat
      (fun s r _ s' hi hf => absorb_entries hf hi) t s' ht h1

/-- What holds during the merging of the catalogs. -/
def TreeInv (c : Consts) (ign : Bool) (this : St) (n : Nat) (l : List St) : Prop :=
  l.length = n ∧ (∀ s ∈ l, Good c s) ∧ ∃ s, l[0]? = some s ∧ SameRows ign this s

theorem mergePair_inv (c : Consts) (pop : Pop) (ign : Bool) (hr : 0 ≤ c.radTol) (this : St) (n d : Nat) (l : List St) (i : Nat)
    (h : TreeInv c ign this n l) : ∃ l', mergePair c pop ign d l i = .ok l' ∧ TreeInv c ign this n l' := by
  obtain ⟨hn, hg, s0, h0, hrows⟩ := h
  unfold mergePair
  split
  · rename_i a b ha hb
    obtain ⟨a', e1, e2, e3⟩ := consolidate_good c pop ign hr (hg a (List.mem_of_getElem? ha)) (hg b (List.mem_of_getElem? hb))
    refine ⟨l.set i a', by rw [e1]; rfl, by simp [hn], ?_, ?_⟩
    · intro s hs
      rcases List.mem_or_eq_of_mem_set hs with hs | rfl
      · exact hg s hs
      · exact e2
    · have hlt := (List.getElem?_eq_some_iff.1 ha).1
      by_cases hi : i = 0
      · subst hi
        rw [h0] at ha
        injection ha with ha
        subst ha
        exact ⟨a', by simp [hlt], sameRows_trans hrows e3⟩
      · refine ⟨s0, ?_, hrows⟩
        rw [List.getElem?_set_ne hi]
        exact h0
  · exact ⟨l, rfl, hn, hg, s0, h0, hrows⟩

theorem tree_ok (c : Consts) (pop : Pop) (ign : Bool) (hr : 0 ≤ c.radTol) (this : St) (other : List St) (ht : Good c this)
    (ho : ∀ o ∈ other, Good c o) :
    ∃ l, tree c pop ign (this :: other) = .ok l ∧ TreeInv c ign this (other.length + 1) l := by
  apply foldlM_inv (TreeInv c ign this (other.length + 1))
  · intro l d hl
    exact foldlM_inv (TreeInv c ign this (other.length + 1)) (mergePair c pop ign d)
      (fun l i h => mergePair_inv c pop ign hr this _ d l i h) _ l hl
  · refine ⟨rfl, ?_, this, rfl, sameRows_refl ign this⟩
    intro s hs
    rcases List.mem_cons.1 hs with rfl | hs
    · exact ht
    · exact ho s hs

/-- C57, for any number of objects: the catalogs can be put together, and the rows of this object keep their phase
centers. -/
theorem concat_keeps_this (c : Consts) (pop : Pop) (ign : Bool) (hr : 0 ≤ c.radTol) (this : St) (other : List St) (ht : Good c this)
    (ho : ∀ o ∈ other, Good c o) :
    ∃ res, concatCat c pop ign this other = .ok res ∧ (res.cat.map Prod.fst).Nodup ∧ res.nphase = res.cat.length ∧
      ∀ r e, PointsAt this r e → ∃ e', PointsAt res r e' ∧ SameContents ign e e' := by
  obtain ⟨l, h1, h2, h3, s, h4, h5⟩ := tree_ok c pop ign hr this other ht ho
  unfold concatCat
  rw [h1]
  refine ⟨_, rfl, ?_⟩
  cases l with
  | nil => simp at h4
  | cons a l =>
    simp only [List.getElem?_cons_zero, Option.some.injEq] at h4
    subst h4
    refine ⟨(h3 a (by simp)).1.distinct, rfl, ?_⟩
    intro r e hp
    obtain ⟨e', ⟨i, hi, he⟩, hc⟩ := h5.2 r e hp
    refine ⟨e', ⟨i, ?_, he⟩, hc⟩
    show (a.ids ++ _)[r]? = some i
    rw [List.getElem?_append_left (List.getElem?_eq_some_iff.1 hi).1]
    exact hi

/-- C57, for one other object: all rows keep their phase centers (provided that no entry matches two different entries of the
other object's catalog). -/
theorem concat_two_partial (c : Consts) (pop : Pop) (ign : Bool) (hr : 0 ≤ c.radTol) (this other : St) (ht : Good c this)
    (ho : Good c other) (hsep : Separated c ign this other.cat) :
    ∃ res, concatCat c pop ign this [other] = .ok res ∧ Consistent res ∧
      (∀ r e, PointsAt this r e → ∃ e', PointsAt res r e' ∧ SameContents ign e e') ∧
      ∀ r e, PointsAt other r e → ∃ e', PointsAt res (this.ids.length + r) e' ∧ Matches c ign e e' ∧ e'.name = e.name := by
  obtain ⟨s', h1, -, h3, h4, -⟩ := consolidate_keeps c pop ign hr other.cat this ht.1 ho.1.distinct ho.2
  have hres := combined_rows_partial c pop ign hr other this s' ht.1 ho.1 ho.2 hsep h1
  have htree : tree c pop ign [this, other] = .ok [s', other] := by
    have hst : strides 2 = [1] := by decide
    have hidx : (List.range 2).filter (fun i => decide (i % (2 * 1) = 0)) = [0] := by decide
    show (strides 2).foldlM (mergeRound c pop ign) [this, other] = _
    rw [hst]
    show (mergeRound c pop ign [this, other] 1 >>= fun s => .ok s) = _
    have : mergeRound c pop ign [this, other] 1 = .ok [s', other] := by
      unfold mergeRound
      show ((List.range 2).filter (fun i => decide (i % (2 * 1) = 0))).foldlM _ _ = _
      rw [hidx]
      show (mergePair c pop ign 1 [this, other] 0 >>= fun s => .ok s) = _
      have : mergePair c pop ign 1 [this, other] 0 = .ok [s', other] := by
        unfold mergePair
        simp only [List.getElem?_cons_zero, Nat.zero_add, List.getElem?_cons_succ]
        rw [h1]
        rfl
      rw [this]
      rfl
    rw [this]
    rfl
  refine ⟨⟨s'.cat, s'.ids ++ other.ids, s'.cat.length⟩, ?_, hres.1, ?_, ?_⟩
  · unfold concatCat
    rw [htree]
    simp [Except.map]
  · intro r e hp
    obtain ⟨e', ⟨i, hi, he⟩, hc⟩ := h4 r e hp
    exact ⟨e', ⟨i, by rw [List.getElem?_append_left (List.getElem?_eq_some_iff.1 hi).1]; exact hi, he⟩, hc⟩
  · intro r e hp
    have := hres.2 r e hp
    rw [h3] at this
    exact this

/-! ### Counterexample -/

/-- Objects with one source, all with ID 0. -/
def onA : St := { cat := [(0, { comet with name := ['a'] })], ids := [0], nphase := 1 }
def onB : St := { cat := [(0, { comet with name := ['b'] })], ids := [0], nphase := 1 }

theorem one_good (n : List Char) : Good consts { cat := [(0, { comet with name := n })], ids := [0], nphase := 1 } := by
  refine ⟨⟨by simp, rfl, ?_⟩, ?_⟩
  · intro i hi
    simp only [List.mem_singleton] at hi
    subst hi
    exact ⟨_, List.mem_cons_self⟩
  · intro k e h
    simp only [List.mem_singleton, Prod.mk.injEq] at h
    rw [h.2]
    exact comet_wf n

/-- Three objects, of which the first two look at A and the third at B: in the result the row of the second object points at
B. -/
theorem concat_phase_counterexample : Good consts onA ∧ Good consts onB ∧
    (PointsAt onA 0 { comet with name := ['a'] } ∧
      ∃ res, concatCat consts slotPop false onA [onA, onB] = .ok res ∧ res.ids.length = 3 ∧ PointsAt res 1 { comet with name := ['b'] } ∧
        ∀ e, PointsAt res 1 e → e.name = ['b']) := by
  refine ⟨one_good _, one_good _, ⟨0, by decide, List.mem_cons_self⟩, ?_⟩
  refine ⟨{ cat := [(1, { comet with name := ['a'] }), (0, { comet with name := ['b'] })], ids := [1, 0, 0], nphase := 2 }, by decide +kernel, rfl,
    ⟨0, by decide, by decide⟩, ?_⟩
  rintro e ⟨i, hi, he⟩
  simp only [List.getElem?_cons_succ, List.getElem?_cons_zero, Option.some.injEq] at hi
  subst hi
  simp only [List.mem_cons, Prod.mk.injEq, Int.zero_ne_one, false_and, true_and, List.not_mem_nil, or_false, false_or] at he
  rw [he]

/-- The theorems apply to two and to three objects. -/
example : (∃ res, concatCat consts slotPop false onA [onA, onB] = .ok res ∧ (res.cat.map Prod.fst).Nodup) ∧
    ∃ res, concatCat consts slotPop false onA [onB] = .ok res ∧ Consistent res := by
  constructor
  · obtain ⟨res, h1, h2, -⟩ := concat_keeps_this consts slotPop false (by decide +kernel) onA [onA, onB] (one_good _)
      (by intro o ho; simp only [List.mem_cons, List.not_mem_nil, or_false] at ho; rcases ho with rfl | rfl <;> exact one_good _)
    exact ⟨res, h1, h2⟩
  · have hsep : Separated consts false onA onB.cat := by
      intro k e k' e' x h h' _ _ _
      simp only [onB, List.mem_singleton, Prod.mk.injEq] at h h'
      rw [h.1, h'.1]
    obtain ⟨res, h1, h2, -⟩ := concat_two_partial consts slotPop false (by decide +kernel) onA onB (one_good _) (one_good _) hsep
    exact ⟨res, h1, h2⟩

end Verif.Concat
