import Verif.FlexJones.Convert

/-! C88: `_make_flex_jones` keeps every solution that is not flagged. -/
namespace Verif.FlexJones
open Verif.Np Verif.FreqSort Verif.FlexPol

variable {L V : Type}

theorem mapM_ok {α β : Type} (f : α → Except Err β) : ∀ (l : List α) (r : List β), l.mapM f = .ok r → List.Forall₂ (fun a b => f a = .ok b) l r := by
  intro l
  induction l with
  | nil => intro r h; simp [pure, Except.pure] at h; subst h; exact .nil
  | cons a l ih =>
    intro r h
    rw [List.mapM_cons] at h
    cases h1 : f a with
    | error e => rw [h1] at h; cases h
    | ok b =>
      rw [h1] at h
      cases h2 : l.mapM f with
      | error e => rw [h2] at h; cases h
      | ok r' =>
        rw [h2] at h
        simp only [bind, Except.bind, pure, Except.pure, Except.ok.injEq] at h
        subst h
        exact .cons h1 (ih r' h2)

theorem mapM_error {α β : Type} (f : α → Except Err β) : ∀ (l : List α) (e : Err), l.mapM f = .error e → ∃ a ∈ l, f a = .error e := by
  intro l
  induction l with
  | nil => intro e h; simp [pure, Except.pure] at h
  | cons a l ih =>
    intro e h
    rw [List.mapM_cons] at h
    cases h1 : f a with
    | error e' =>
      rw [h1] at h
      simp only [bind, Except.bind, Except.error.injEq] at h
      exact ⟨a, by simp, by rw [h1, h]⟩
    | ok b =>
      rw [h1] at h
      cases h2 : l.mapM f with
      | error e' =>
        rw [h2] at h
        simp only [bind, Except.bind, Except.error.injEq] at h
        subst h
        obtain ⟨x, hx, e⟩ := ih e' h2
        exact ⟨x, by simp [hx], e⟩
      | ok r' => rw [h2] at h; cases h

/-- There is a solution without flag for the component at position `p` in window `w`. -/
def HasData (flagged : V → Bool) (na nt : Nat) (o : Obj L V) (w : Int) (p : Nat) : Prop :=
  p < o.jones.length ∧ ∃ pl ∈ ofWin o.ids o.planes w, ∃ i < na, ∃ t < nt, flagged (pl i t p) = false

theorem winJones_cases (flagged : V → Bool) (na nt : Nat) (o : Obj L V) (w : Int) :
    match winJones flagged na nt o.jones.length (ofWin o.ids o.planes w) with
    | .ok none => ∀ p, ¬ HasData flagged na nt o w p
    | .ok (some q) => ∀ p, HasData flagged na nt o w p ↔ p = q
    | .error e => e = .multiple ∧ ∃ p q, p ≠ q ∧ HasData flagged na nt o w p ∧ HasData flagged na nt o w q := by
  unfold winJones
  simp only
  set good := (List.range o.jones.length).filter (fun p => (ofWin o.ids o.planes w).any
    (fun pl => (List.range na).any (fun i => (List.range nt).any (fun t => !flagged (pl i t p))))) with hg
  have hm : ∀ p, p ∈ good ↔ HasData flagged na nt o w p := by
    intro p
    rw [hg]
    simp [HasData]
  have hn : good.Nodup := List.nodup_range.filter _
  clear_value good
  match good, hm, hn with
  | [], hm, _ => intro p h; simpa using (hm p).2 h
  | [q], hm, _ => intro p; rw [← hm p]; simp
  | a :: b :: rest, hm, hn =>
    refine ⟨rfl, a, b, ?_, (hm a).1 (by simp), (hm b).1 (by simp)⟩
    simp at hn
    exact hn.1.1

theorem jonesIdx_spec {flagged : V → Bool} {na nt : Nat} {o : Obj L V} {idx : List (Option Nat)} (h : jonesIdx flagged na nt o = .ok idx) :
    idx.length = o.spws.length ∧ ∀ (k : Nat) w, o.spws[k]? = some w → ∃ x, idx[k]? = some x ∧ (∀ p, HasData flagged na nt o w p → x = some p) ∧
      (∀ p, x = some p → p < o.jones.length) := by
  unfold jonesIdx at h
  cases hm : o.spws.mapM (fun w => winJones flagged na nt o.jones.length (ofWin o.ids o.planes w)) with
  | error e => rw [hm] at h; cases h
  | ok l =>
    rw [hm] at h
    simp only [Except.ok.injEq] at h
    have F := mapM_ok _ _ _ hm
    have hl := F.length_eq
    have hk : ∀ (k : Nat) w, o.spws[k]? = some w → ∃ x, l[k]? = some x ∧ (∀ p, HasData flagged na nt o w p → x = some p) ∧
        (∀ p, x = some p → HasData flagged na nt o w p) := by
      intro k w hw
      obtain ⟨hlt, e⟩ := List.getElem?_eq_some_iff.1 hw
      have hlt' : k < l.length := by omega
      refine ⟨l[k], List.getElem?_eq_getElem hlt', ?_⟩
      have := (List.forall₂_iff_get.1 F).2 k hlt hlt'
      simp only [List.get_eq_getElem] at this
      rw [e] at this
      have hc := winJones_cases flagged na nt o w
      rw [this] at hc
      cases hx : l[k] with
      | none => rw [hx] at hc; exact ⟨fun p hp => absurd hp (hc p), fun p hp => by simp at hp⟩
      | some q =>
        rw [hx] at hc
        exact ⟨fun p hp => by rw [(hc p).1 hp], fun p hp => (hc p).2 (by simpa using hp.symm)⟩
    split at h
    · rename_i p hd
      subst h
      refine ⟨by simp [hl], ?_⟩
      intro k w hw
      obtain ⟨x, h1, h2, h3⟩ := hk k w hw
      have hmem : ∀ y, y ∈ l.filterMap id ↔ y = p := by intro y; rw [← List.mem_dedup, hd]; simp
      refine ⟨some p, by rw [List.getElem?_map, h1]; rfl, ?_, ?_⟩
      · intro q hq
        have := h2 q hq
        rw [this] at h1
        rw [(hmem q).1 (List.mem_filterMap.2 ⟨some q, List.mem_of_getElem? h1, rfl⟩)]
      · intro q hq
        simp only [Option.some.injEq] at hq
        subst hq
        obtain ⟨y, hy, e⟩ := List.mem_filterMap.1 ((hmem p).2 rfl)
        simp only [id] at e
        subst e
        obtain ⟨k', hk'⟩ := List.getElem?_of_mem hy
        have hlt : k' < o.spws.length := by
          have := (List.getElem?_eq_some_iff.1 hk').1
          omega
        obtain ⟨x', h1', -, h3'⟩ := hk k' _ (List.getElem?_eq_getElem hlt)
        rw [hk'] at h1'
        simp only [Option.some.injEq] at h1'
        exact (h3' p h1'.symm).1
    · subst h
      refine ⟨hl.symm, ?_⟩
      intro k w hw
      obtain ⟨x, h1, h2, h3⟩ := hk k w hw
      exact ⟨x, h1, h2, fun p hp => (h3 p hp).1⟩

theorem pick_pos {jones : List Int} (hn : jones ≠ []) {x : Option Nat} (h : ∀ p, x = some p → p < jones.length) :
    jones[pickPos jones.length x]? = some (pickJones jones x) := by
  cases x with
  | none =>
    simp only [pickPos, pickJones]
    rw [← List.getLast?_eq_getElem?, List.getLast?_eq_getLast_of_ne_nil hn]
    rfl
  | some p =>
    simp only [pickPos, pickJones]
    rw [List.getElem?_eq_getElem (h p rfl)]
    rfl

theorem mem_ofWin {α : Type} {ids : List Int} {xs : List α} {k : Nat} {w : Int} {x : α} (h1 : ids[k]? = some w) (h2 : xs[k]? = some x) :
    x ∈ ofWin ids xs w := by
  unfold ofWin
  refine List.mem_map.2 ⟨(w, x), List.mem_filter.2 ⟨List.mem_of_getElem? (i := k) ?_, by simp⟩, rfl⟩
  rw [List.getElem?_zip_eq_some]
  exact ⟨h1, h2⟩

theorem of_mem_ofWin {α : Type} {ids : List Int} {xs : List α} {w : Int} {x : α} (h : x ∈ ofWin ids xs w) : ∃ k : Nat, ids[k]? = some w ∧ xs[k]? = some x := by
  unfold ofWin at h
  obtain ⟨q, hq, rfl⟩ := List.mem_map.1 h
  obtain ⟨h1, h2⟩ := List.mem_filter.1 hq
  obtain ⟨k, hk⟩ := List.getElem?_of_mem h1
  rw [List.getElem?_zip_eq_some] at hk
  simp only [decide_eq_true_eq] at h2
  exact ⟨k, h2 ▸ hk.1, hk.2⟩

/-- C88: `_make_flex_jones` on an object with several components, if it raises no exception: the windows and channels stay, everything the result says
was said before, and every solution without flag is still there. -/
theorem make_keeps_partial (flagged : V → Bool) (na nt : Nat) {o r : Obj L V} (g : Good o) (hf : o.flexJones = none) (hn : o.jones ≠ []) (ht : o.total = false)
    (h : make flagged na nt o = (r, none)) :
    Good r ∧ (∃ fj, r.flexJones = some fj) ∧ r.spws = o.spws ∧ (∀ w, chansOf r w = chansOf o w) ∧
      (∀ i t w l j v, Says r i t w l j v → Says o i t w l j v) ∧
      (∀ i < na, ∀ t < nt, ∀ w l j v, Says o i t w l j v → flagged v = false → Says r i t w l j v) := by
  unfold make at h
  split at h
  · rename_i h1
    obtain ⟨j0, hj0⟩ := List.length_eq_one_iff.1 h1
    rw [hf] at h
    simp only [hj0, List.getElem?_cons_zero, Option.getD_some, Prod.mk.injEq, and_true] at h
    subst h
    have hjo : ∀ w ∈ o.spws, jonesOf { o with flexJones := some (List.replicate o.spws.length j0), jones := [0] } w = some j0 := by
      intro w hw
      unfold jonesOf
      simp only [Option.bind_some]
      rw [List.getElem?_replicate, if_pos (List.idxOf_lt_length_of_mem hw)]
    have hmem : ∀ w l pl, HasChan o w l pl → w ∈ o.spws := fun w l pl ⟨k, h, _⟩ => g.listed w (List.mem_of_getElem? h)
    have hsays : ∀ i t w l j v, Says { o with flexJones := some (List.replicate o.spws.length j0), jones := [0] } i t w l j v ↔ Says o i t w l j v := by
      intro i t w l j v
      unfold Says
      simp only [hf]
      constructor
      · rintro ⟨pl, hc, e, rfl⟩
        rw [hjo w (hmem w l pl hc)] at e
        exact ⟨pl, hc, 0, by simpa [hj0] using e, rfl⟩
      · rintro ⟨pl, hc, p, hp, rfl⟩
        rw [hj0] at hp
        have hp0 : p = 0 := by
          have := (List.getElem?_eq_some_iff.1 hp).1
          simpa using this
        subst hp0
        exact ⟨pl, hc, by rw [hjo w (hmem w l pl hc)]; simpa using hp, rfl⟩
    refine ⟨⟨g.lab, g.planes, g.nodup, g.listed, g.used, by simp, ?_⟩, ⟨_, rfl⟩, rfl, fun _ => rfl, fun i t w l j v h => (hsays i t w l j v).1 h,
      fun i _ t _ w l j v h _ => (hsays i t w l j v).2 h⟩
    intro fj hfj
    simp only [Option.some.injEq] at hfj
    subst hfj
    simp
  · cases hi : jonesIdx flagged na nt o with
    | error e => rw [hi] at h; simp at h
    | ok idx =>
      rw [hi] at h
      simp only [totalFails, ht, Bool.false_eq_true, if_false, Prod.mk.injEq, and_true] at h
      obtain ⟨hil, hix⟩ := jonesIdx_spec hi
      subst h
      set r : Obj L V := { o with flexJones := some (idx.map (pickJones o.jones)), jones := [0], planes := (o.ids.zip o.planes).map (fun q =>
        onePlane q.2 (pickPos o.jones.length (((idx[o.spws.idxOf q.1]?)).getD none))), total := false } with hr
      have hgr : r.planes.length = o.ids.length := by
        simp [hr, g.planes]
      have hpick : ∀ w ∈ o.spws, ∃ x, idx[o.spws.idxOf w]? = some x ∧ (∀ p, HasData flagged na nt o w p → x = some p) ∧
          jonesOf r w = some (pickJones o.jones x) ∧ o.jones[pickPos o.jones.length x]? = some (pickJones o.jones x) := by
        intro w hw
        obtain ⟨x, h1, h2, h3⟩ := hix _ w (List.getElem?_idxOf hw)
        refine ⟨x, h1, h2, ?_, pick_pos hn h3⟩
        unfold jonesOf
        simp [hr, h1]
      have hch : ∀ w l pl', HasChan r w l pl' ↔ ∃ pl, HasChan o w l pl ∧ pl' = onePlane pl (pickPos o.jones.length (((idx[o.spws.idxOf w]?)).getD none)) := by
        intro w l pl'
        constructor
        · rintro ⟨k, h1, h2, h3⟩
          simp only [hr, List.getElem?_map, Option.map_eq_some_iff] at h1 h2 h3
          obtain ⟨q, hq, rfl⟩ := h3
          rw [List.getElem?_zip_eq_some] at hq
          rw [h1] at hq
          have e : q.1 = w := by simpa using hq.1.symm
          exact ⟨q.2, ⟨k, h1, h2, hq.2⟩, by rw [e]⟩
        · rintro ⟨pl, ⟨k, h1, h2, h3⟩, rfl⟩
          refine ⟨k, h1, h2, ?_⟩
          simp only [hr, List.getElem?_map, Option.map_eq_some_iff]
          exact ⟨(w, pl), List.getElem?_zip_eq_some.2 ⟨h1, h3⟩, rfl⟩
      have hfr : r.flexJones = some (idx.map (pickJones o.jones)) := rfl
      have hmem : ∀ w l pl, HasChan o w l pl → w ∈ o.spws := fun w l pl ⟨k, h, _⟩ => g.listed w (List.mem_of_getElem? h)
      refine ⟨⟨g.lab, hgr, g.nodup, g.listed, g.used, by simp [hr], ?_⟩, ⟨_, hfr⟩, rfl, fun _ => rfl, ?_, ?_⟩
      · intro fj hfj
        rw [hfr, Option.some.injEq] at hfj
        subst hfj
        simp [hr, hil]
      · rintro i t w l j v ⟨pl', hc, hv⟩
        rw [hfr] at hv
        obtain ⟨hj, rfl⟩ := hv
        obtain ⟨pl, hc', rfl⟩ := (hch w l pl').1 hc
        obtain ⟨x, h1, h2, h3, h4⟩ := hpick w (hmem w l pl hc')
        rw [h3] at hj
        unfold Says
        rw [hf]
        refine ⟨pl, hc', pickPos o.jones.length x, h4.trans hj, ?_⟩
        simp [onePlane, h1]
      · rintro i hi' t ht' w l j v ⟨pl, hc, hv⟩ hfl
        rw [hf] at hv
        obtain ⟨p, hp, rfl⟩ := hv
        have hw := hmem w l pl hc
        obtain ⟨x, h1, h2, h3, h4⟩ := hpick w hw
        obtain ⟨k, hk1, hk2, hk3⟩ := id hc
        have hd : HasData flagged na nt o w p := ⟨(List.getElem?_eq_some_iff.1 hp).1, pl, mem_ofWin hk1 hk3, i, hi', t, ht', hfl⟩
        have hx := h2 p hd
        subst hx
        unfold Says
        rw [hfr]
        refine ⟨_, (hch w l _).2 ⟨pl, hc, rfl⟩, ?_, ?_⟩
        · rw [h3, ← h4]; exact hp
        · simp [onePlane, h1, pickPos]

/-- C88: an object without `total_quality_array` is refused exactly if some window has solutions without flag for two components; it then stays as it is. -/
theorem make_refuses (flagged : V → Bool) (na nt : Nat) {o : Obj L V} (g : Good o) (hf : o.flexJones = none) (ht : o.total = false) :
    ((make flagged na nt o).2 ≠ none ↔ ∃ w ∈ o.spws, ∃ j j' i i' t t' l l' v v', j ≠ j' ∧ i < na ∧ t < nt ∧ i' < na ∧ t' < nt ∧
      Says o i t w l j v ∧ flagged v = false ∧ Says o i' t' w l' j' v' ∧ flagged v' = false) ∧
    ((make flagged na nt o).2 ≠ none → (make flagged na nt o).1 = o ∧ (make flagged na nt o).2 = some .multiple) := by
  have hpair : ∀ w ∈ o.spws, (∃ p q, p ≠ q ∧ HasData flagged na nt o w p ∧ HasData flagged na nt o w q) ↔ ∃ j j' i i' t t' l l' v v', j ≠ j' ∧ i < na ∧ t < nt ∧ i' < na ∧ t' < nt ∧
      Says o i t w l j v ∧ flagged v = false ∧ Says o i' t' w l' j' v' ∧ flagged v' = false := by
    intro w hw
    have hone : ∀ p, HasData flagged na nt o w p → ∃ j i t l v, o.jones[p]? = some j ∧ i < na ∧ t < nt ∧ Says o i t w l j v ∧ flagged v = false := by
      rintro p ⟨hp, pl, hpl, i, hi, t, ht, hv⟩
      obtain ⟨k, h1, h2⟩ := of_mem_ofWin hpl
      have hlt : k < o.lab.length := by rw [g.lab]; exact (List.getElem?_eq_some_iff.1 h1).1
      refine ⟨o.jones[p], i, t, o.lab[k], pl i t p, List.getElem?_eq_getElem hp, hi, ht, ⟨pl, ⟨k, h1, List.getElem?_eq_getElem hlt, h2⟩, ?_⟩, hv⟩
      rw [hf]
      exact ⟨p, List.getElem?_eq_getElem hp, rfl⟩
    have htwo : ∀ j i t l v, i < na → t < nt → Says o i t w l j v → flagged v = false → ∃ p, o.jones[p]? = some j ∧ HasData flagged na nt o w p := by
      rintro j i t l v hi ht ⟨pl, ⟨k, h1, h2, h3⟩, hv⟩ hfl
      rw [hf] at hv
      obtain ⟨p, hp, rfl⟩ := hv
      exact ⟨p, hp, (List.getElem?_eq_some_iff.1 hp).1, pl, mem_ofWin h1 h3, i, hi, t, ht, hfl⟩
    constructor
    · rintro ⟨p, q, hne, h1, h2⟩
      obtain ⟨j, i, t, l, v, a1, a2, a3, a4, a5⟩ := hone p h1
      obtain ⟨j', i', t', l', v', b1, b2, b3, b4, b5⟩ := hone q h2
      refine ⟨j, j', i, i', t, t', l, l', v, v', ?_, a2, a3, b2, b3, a4, a5, b4, b5⟩
      rintro rfl
      rw [← b1] at a1
      exact hne ((List.getElem?_inj h1.1 g.jones).1 a1)
    · rintro ⟨j, j', i, i', t, t', l, l', v, v', hne, a2, a3, b2, b3, a4, a5, b4, b5⟩
      obtain ⟨p, hp, h1⟩ := htwo j i t l v a2 a3 a4 a5
      obtain ⟨q, hq, h2⟩ := htwo j' i' t' l' v' b2 b3 b4 b5
      refine ⟨p, q, ?_, h1, h2⟩
      rintro rfl
      rw [hp] at hq
      exact hne (by simpa using hq)
  unfold make
  split
  · rename_i h1
    rw [hf]
    simp only [ne_eq, not_true_eq_false, false_iff, false_imp_iff, and_true]
    rintro ⟨w, hw, hx⟩
    obtain ⟨p, q, hne, h2, h3⟩ := (hpair w hw).2 hx
    have := h2.1
    have := h3.1
    omega
  · cases hi : jonesIdx flagged na nt o with
    | error e =>
      have : e = .multiple ∧ ∃ w ∈ o.spws, ∃ p q, p ≠ q ∧ HasData flagged na nt o w p ∧ HasData flagged na nt o w q := by
        unfold jonesIdx at hi
        cases hm : o.spws.mapM (fun w => winJones flagged na nt o.jones.length (ofWin o.ids o.planes w)) with
        | ok l => rw [hm] at hi; cases hi
        | error e' =>
          rw [hm] at hi
          simp only [Except.error.injEq] at hi
          subst hi
          obtain ⟨w, hw, he⟩ := mapM_error _ _ _ hm
          have hc := winJones_cases flagged na nt o w
          rw [he] at hc
          exact ⟨hc.1, w, hw, hc.2⟩
      obtain ⟨rfl, w, hw, hx⟩ := this
      simp only [ne_eq, reduceCtorEq, not_false_eq_true, true_iff, forall_const, and_self, and_true]
      exact ⟨w, hw, (hpair w hw).1 hx⟩
    | ok idx =>
      simp only [totalFails, ht, Bool.false_eq_true, if_false, ne_eq, not_true_eq_false, false_iff, false_imp_iff, and_true]
      rintro ⟨w, hw, hx⟩
      obtain ⟨p, q, hne, h2, h3⟩ := (hpair w hw).2 hx
      obtain ⟨x, -, h5, -⟩ := (jonesIdx_spec hi).2 _ w (List.getElem?_idxOf hw)
      have e1 := h5 p h2
      have e2 := h5 q h3
      rw [e1] at e2
      exact hne (by simpa using e2)

/-- **C88 is false** with `total_quality_array`: every object with several components that would be converted without it ends with an
exception, and is not what it was. -/
theorem make_total_counterexample (flagged : V → Bool) (na nt : Nat) {o r : Obj L V} (h1 : o.jones.length ≠ 1) (ht : o.total = true)
    (hok : make flagged na nt { o with total := false } = (r, none)) :
    make flagged na nt o = ({ r with total := true }, some .totalQuality) ∧ (make flagged na nt o).1 ≠ o := by
  have hidx : jonesIdx flagged na nt { o with total := false } = jonesIdx flagged na nt o := rfl
  have key : make flagged na nt o = ({ r with total := true }, some .totalQuality) := by
    unfold make at hok ⊢
    rw [if_neg h1] at hok ⊢
    rw [hidx] at hok
    cases hj : jonesIdx flagged na nt o with
    | error e => rw [hj] at hok; simp at hok
    | ok idx =>
      rw [hj] at hok
      simp only [Prod.mk.injEq] at hok
      rw [← hok.1]
      simp [totalFails, ht]
  refine ⟨key, fun he => h1 ?_⟩
  have hr : r.jones = [0] := by
    unfold make at hok
    rw [if_neg h1, hidx] at hok
    cases hj : jonesIdx flagged na nt o with
    | error e => rw [hj] at hok; simp at hok
    | ok idx =>
      rw [hj] at hok
      simp only [Prod.mk.injEq] at hok
      rw [← hok.1]
  rw [key] at he
  have := congrArg Obj.jones he
  simp only [hr] at this
  rw [← this]
  rfl

end Verif.FlexJones
