import Verif.MirGet.Model

/-! Theorems about values of MIR tables. -/

namespace Verif.MirGet

variable {F A : Type} [DecidableEq F]

/-- Fields and the mask have one value for each record. -/
structure Good (t : Tab F A) : Prop where
  data : ∀ f ∈ t.fields, (t.data f).length = t.size
  mask : t.mask.length = t.size
  keys : t.keys.length = t.size

/-- The value of a record meets a condition. -/
def Meets (t : Tab F A) (i : Nat) (c : F × (A → Bool)) : Prop := ∃ x, (t.data c.1)[i]? = some x ∧ c.2 x = true

/-- The record is asked for: it is used, if this is asked for, and meets all conditions (or one of them) about fields of the table. -/
def Asked (t : Tab F A) (use andArgs : Bool) (l : List (F × (A → Bool))) (i : Nat) : Prop :=
  i < t.size ∧ (use = true → t.mask[i]? = some true) ∧
    if andArgs then ∀ c ∈ l, c.1 ∈ t.fields → Meets t i c else ∃ c ∈ l, c.1 ∈ t.fields ∧ Meets t i c

/-- The list has the values of the records that are asked for, in their order. -/
def ValuesOf (t : Tab F A) (f : F) (P : Nat → Prop) (l : List A) : Prop :=
  ∃ p : List Nat, p.Pairwise (· < ·) ∧ (∀ i, i ∈ p ↔ P i) ∧ p.map (fun i => (t.data f)[i]?) = l.map some

omit [DecidableEq F] in
theorem cond_at {t : Tab F A} (h : Good t) {c : F × (A → Bool)} (hc : c.1 ∈ t.fields) {i : Nat} (hi : i < t.size) :
    (t.cond c).length = t.size ∧ ((t.cond c).getD i false = true ↔ Meets t i c) := by
  have hl := h.data c.1 hc
  unfold Tab.cond Meets
  refine ⟨by rw [List.length_map, hl], ?_⟩
  rw [List.getD_eq_getElem?_getD, List.getElem?_map, List.getElem?_eq_getElem (by omega)]
  simp

omit [DecidableEq F] in
theorem fold_at {t : Tab F A} (h : Good t) {andArgs : Bool} {i : Nat} (hi : i < t.size) : ∀ (l : List (F × (A → Bool))), (∀ c ∈ l, c.1 ∈ t.fields) → ∀ m : List Bool,
    m.length = t.size →
    ((l.foldl (fun m c => List.zipWith (fun a b => if andArgs then a && b else a || b) m (t.cond c)) m).getD i false = true ↔
      if andArgs then m.getD i false = true ∧ ∀ c ∈ l, Meets t i c else m.getD i false = true ∨ ∃ c ∈ l, Meets t i c) := by
  intro l
  induction l with
  | nil => intro _ m _; simp
  | cons c l ih =>
    intro hl m hm
    obtain ⟨e1, e2⟩ := cond_at h (hl c List.mem_cons_self) hi
    rw [List.foldl_cons, ih (fun c hc => hl c (List.mem_cons_of_mem _ hc)) _ (by rw [List.length_zipWith, hm, e1, Nat.min_self])]
    have hz : (List.zipWith (fun a b => if andArgs then a && b else a || b) m (t.cond c)).getD i false =
        (if andArgs then m.getD i false && (t.cond c).getD i false else m.getD i false || (t.cond c).getD i false) := by
      simp only [List.getD_eq_getElem?_getD]
      rw [List.getElem?_zipWith, List.getElem?_eq_getElem (by omega), List.getElem?_eq_getElem (by omega)]
      simp
    rw [hz]
    cases andArgs with
    | true =>
      simp only [if_true, Bool.and_eq_true, e2, List.forall_mem_cons]
      exact and_assoc
    | false =>
      simp only [Bool.false_eq_true, if_false, Bool.or_eq_true, e2, List.exists_mem_cons_iff]
      exact or_assoc

omit [DecidableEq F] in
theorem values_of {t : Tab F A} (h : Good t) {f : F} (hf : f ∈ t.fields) {p : List Nat} (hp : ∀ i ∈ p, i < t.size) :
    p.map (fun i => (t.data f)[i]?) = (p.filterMap (fun i => (t.data f)[i]?)).map some := by
  induction p with
  | nil => rfl
  | cons i p ih =>
    have hi := hp i List.mem_cons_self
    have e : (t.data f)[i]? = some ((t.data f)[i]'(by rw [h.data f hf]; exact hi)) := List.getElem?_eq_getElem _
    rw [List.filterMap_cons_some e, List.map_cons, List.map_cons, ← e, ih (fun i hi => hp i (List.mem_cons_of_mem _ hi))]

/-- Positions that are selected by conditions. -/
theorem conds_pos {t : Tab F A} (h : Good t) {use andArgs : Bool} (hm : use = true → andArgs = true) {l : List (F × (A → Bool))} {s : Sel}
    (hs : t.conds use andArgs l = .ok s) : ∃ m, s = .mask m ∧ ∀ i, i ∈ s.pos t.size ↔ Asked t use andArgs l i := by
  unfold Tab.conds at hs
  dsimp only at hs
  split at hs
  · cases hs
  · obtain rfl := Except.ok.inj hs
    refine ⟨_, rfl, fun i => ?_⟩
    unfold Sel.pos
    dsimp only
    rw [List.mem_filter, List.mem_range]
    unfold Asked
    by_cases hi : i < t.size
    · rw [fold_at h hi _ (fun c hc => of_decide_eq_true (List.mem_filter.1 hc).2) _ (by split <;> simp [h.mask])]
      simp only [hi, true_and, List.mem_filter, decide_eq_true_eq]
      have hmask : t.mask.getD i false = true ↔ t.mask[i]? = some true := by
        rw [List.getD_eq_getElem?_getD, List.getElem?_eq_getElem (by rw [h.mask]; exact hi)]
        simp
      cases andArgs with
      | true =>
        simp only [if_true]
        cases use with
        | true =>
          simp only [if_true, hmask, true_imp_iff]
          exact and_congr_right (fun _ => ⟨fun hc c h1 h2 => hc c ⟨h1, h2⟩, fun hc c h1 => hc c h1.1 h1.2⟩)
        | false =>
          have : (List.replicate t.size true).getD i false = true := by
            rw [List.getD_eq_getElem?_getD, List.getElem?_replicate, if_pos hi]
            rfl
          simp only [Bool.false_eq_true, if_false, this, true_and, false_imp_iff]
          exact ⟨fun hc c h1 h2 => hc c ⟨h1, h2⟩, fun hc c h1 => hc c h1.1 h1.2⟩
      | false =>
        cases use with
        | true => exact absurd (hm rfl) (by decide)
        | false =>
          have : (List.replicate t.size false).getD i false = false := by
            rw [List.getD_eq_getElem?_getD, List.getElem?_replicate, if_pos hi]
            rfl
          simp only [Bool.false_eq_true, if_false, this, false_or, false_imp_iff, true_and]
          exact ⟨fun ⟨c, h1, h2⟩ => ⟨c, h1.1, h1.2, h2⟩, fun ⟨c, h1, h2, h3⟩ => ⟨c, ⟨h1, h2⟩, h3⟩⟩
    · simp only [hi, false_and]

/-- The query with conditions is refused exactly if no condition is about a field of the table. -/
theorem conds_error (t : Tab F A) (use andArgs : Bool) (l : List (F × (A → Bool))) :
    (∃ e, t.conds use andArgs l = .error e) ↔ ∀ c ∈ l, c.1 ∉ t.fields := by
  unfold Tab.conds
  dsimp only
  split
  · rename_i he
    refine ⟨fun _ c hc hf => ?_, fun _ => ⟨_, rfl⟩⟩
    rw [List.isEmpty_iff, List.filter_eq_nil_iff] at he
    exact he c hc (decide_eq_true hf)
  · rename_i he
    refine ⟨fun ⟨_, h⟩ => (by cases h), fun h => absurd ?_ he⟩
    rw [List.isEmpty_iff, List.filter_eq_nil_iff]
    intro c hc hd
    exact h c hc (of_decide_eq_true hd)

theorem mask_pos_lt {n : Nat} (m : List Bool) : ∀ i ∈ (Sel.mask m).pos n, i < n := fun _ hi => List.mem_range.1 (List.mem_filter.1 hi).1

theorem mask_sorted {n : Nat} (m : List Bool) : ((Sel.mask m).pos n).Pairwise (· < ·) := List.pairwise_lt_range.filter _

/-- C218: values of the records that meet the conditions, in their order. -/
theorem get_partial {t : Tab F A} (h : Good t) {f : F} (use : Option Bool) (andArgs : Bool) (l : List (F × (A → Bool)))
    (hm : use.getD true = true → andArgs = true) :
    ((∃ v, t.get f { useMask := use, conds := some l, andArgs := andArgs } = .ok v) ↔ f ∈ t.fields ∧ ∃ c ∈ l, c.1 ∈ t.fields) ∧
    ∀ v, t.get f { useMask := use, conds := some l, andArgs := andArgs } = .ok v → ValuesOf t f (Asked t (use.getD true) andArgs l) v := by
  have hq : t.query { useMask := use, conds := some l, andArgs := andArgs } = t.conds (use.getD true) andArgs l := rfl
  unfold Tab.get
  rw [hq]
  have he := conds_error t (use.getD true) andArgs l
  cases hs : t.conds (use.getD true) andArgs l with
  | error e =>
    have := he.1 ⟨e, hs⟩
    exact ⟨⟨fun ⟨_, h⟩ => (by cases h), fun ⟨_, c, hc, hf⟩ => absurd hf (this c hc)⟩, fun v hv => by cases hv⟩
  | ok s =>
    obtain ⟨m, rfl, hp⟩ := conds_pos h hm hs
    have hc : ∃ c ∈ l, c.1 ∈ t.fields := by
      by_contra hc
      obtain ⟨e, he⟩ := he.2 (fun c h1 h2 => hc ⟨c, h1, h2⟩)
      rw [hs] at he
      cases he
    dsimp only
    by_cases hf : f ∈ t.fields
    · rw [if_neg (not_not.2 hf), if_pos (List.all_eq_true.2 (fun i hi => decide_eq_true (mask_pos_lt m i hi)))]
      refine ⟨⟨fun _ => ⟨hf, hc⟩, fun _ => ⟨_, rfl⟩⟩, fun v hv => ?_⟩
      obtain rfl := Except.ok.inj hv
      exact ⟨_, mask_sorted m, hp, values_of h hf (mask_pos_lt m)⟩
    · rw [if_pos hf]
      exact ⟨⟨fun ⟨_, h⟩ => (by cases h), fun h => absurd h.1 hf⟩, fun v hv => by cases hv⟩

/-- C218: without conditions, values of the records that are used, or of all. -/
theorem get_all {t : Tab F A} (h : Good t) {f : F} (hf : f ∈ t.fields) (use : Option Bool) :
    ∃ v, t.get f { useMask := use } = .ok v ∧ ValuesOf t f (fun i => i < t.size ∧ (use ≠ some false → t.mask[i]? = some true)) v := by
  unfold Tab.get
  have hq : t.query { useMask := use } = .ok (if use.getD true then .mask t.mask else .all) := rfl
  rw [hq]
  dsimp only
  rw [if_neg (not_not.2 hf)]
  cases hu : use.getD true with
  | true =>
    rw [if_pos rfl, if_pos (List.all_eq_true.2 (fun i hi => decide_eq_true (mask_pos_lt _ i hi)))]
    refine ⟨_, rfl, _, mask_sorted t.mask, fun i => ?_, values_of h hf (mask_pos_lt t.mask)⟩
    have : use ≠ some false := by rintro rfl; cases hu
    unfold Sel.pos
    dsimp only
    rw [List.mem_filter, List.mem_range]
    refine and_congr_right (fun hi => ?_)
    rw [List.getD_eq_getElem?_getD, List.getElem?_eq_getElem (by rw [h.mask]; exact hi)]
    simp [this]
  | false =>
    have : use = some false := by
      cases use with
      | none => cases hu
      | some b => cases b with
        | true => cases hu
        | false => rfl
    subst this
    rw [if_neg (c := (false : Bool) = true) (by decide)]
    have hall : ∀ i ∈ Sel.all.pos t.size, i < t.size := fun i hi => List.mem_range.1 hi
    rw [if_pos (List.all_eq_true.2 (fun i hi => decide_eq_true (hall i hi)))]
    refine ⟨_, rfl, _, List.pairwise_lt_range, fun i => ?_, values_of h hf hall⟩
    rw [List.mem_range]
    simp

/-- C218: values of header keys, in the order in which they are given; other keys are refused. -/
theorem get_keys {t : Tab F A} (h : Good t) {f : F} (hf : f ∈ t.fields) (ks : List Nat) (v : List A) :
    t.get f { header := some ks } = .ok v ↔ v.length = ks.length ∧ ∀ (j k : Nat), ks[j]? = some k → ∃ i, t.keys.idxOf k = i ∧ t.keys[i]? = some k ∧ (t.data f)[i]? = v[j]? := by
  have hlt : ∀ k ∈ t.keys, t.keys.idxOf k < t.size := fun k hk => h.keys ▸ List.idxOf_lt_length_of_mem hk
  unfold Tab.get
  have hq : t.query { header := some ks } =
      if ks.all (fun x => decide (x ∈ t.keys)) then .ok (.at (ks.map t.keys.idxOf)) else .error .noKey := rfl
  rw [hq]
  by_cases hk : ks.all (fun x => decide (x ∈ t.keys)) = true
  · rw [if_pos hk]
    rw [List.all_eq_true] at hk
    have hk : ∀ k ∈ ks, k ∈ t.keys := fun k h => of_decide_eq_true (hk k h)
    dsimp only
    have hp : ∀ i ∈ (Sel.at (ks.map t.keys.idxOf)).pos t.size, i < t.size := by
      intro i hi
      obtain ⟨k, h1, rfl⟩ := List.mem_map.1 hi
      exact hlt k (hk k h1)
    rw [if_neg (not_not.2 hf), if_pos (List.all_eq_true.2 (fun i hi => decide_eq_true (hp i hi)))]
    have hv := values_of h hf hp
    have hvl : ((Sel.at (ks.map t.keys.idxOf)).pos t.size).map (fun i => (t.data f)[i]?) = ks.map (fun k => (t.data f)[t.keys.idxOf k]?) := by
      show (ks.map t.keys.idxOf).map _ = _
      rw [List.map_map]
      rfl
    rw [hvl] at hv
    constructor
    · intro e
      obtain rfl := Except.ok.inj e
      have hlen := congrArg List.length hv
      rw [List.length_map, List.length_map] at hlen
      refine ⟨hlen.symm, fun j k hj => ⟨_, rfl, ?_, ?_⟩⟩
      · have := hk k (List.mem_of_getElem? hj)
        rw [List.getElem?_eq_getElem (List.idxOf_lt_length_of_mem this), List.getElem_idxOf]
      · have e := congrArg (fun l => l[j]?) hv
        rw [List.getElem?_map, List.getElem?_map, hj, Option.map_some] at e
        have hjl : j < ks.length := (List.getElem?_eq_some_iff.1 hj).1
        generalize ((Sel.at (ks.map t.keys.idxOf)).pos t.size).filterMap (fun i => (t.data f)[i]?) = w at e hlen ⊢
        have hw : w[j]? = some (w[j]'(by omega)) := List.getElem?_eq_getElem _
        rw [hw] at e ⊢
        exact Option.some.inj e
    · rintro ⟨hl, he⟩
      congr 1
      have : v.map some = ks.map (fun k => (t.data f)[t.keys.idxOf k]?) := by
        refine List.ext_getElem? (fun j => ?_)
        rw [List.getElem?_map, List.getElem?_map]
        by_cases hj : j < ks.length
        · obtain ⟨i, rfl, -, e⟩ := he j ks[j] (List.getElem?_eq_getElem hj)
          rw [List.getElem?_eq_getElem hj, Option.map_some, e, List.getElem?_eq_getElem (by omega)]
          rfl
        · rw [List.getElem?_eq_none (by omega), List.getElem?_eq_none (by omega)]
          rfl
      rw [hv] at this
      exact (List.map_injective_iff.2 (fun a b e => Option.some.inj e) this).symm
  · rw [if_neg hk]
    refine ⟨fun e => (by cases e), fun ⟨_, he⟩ => absurd ?_ hk⟩
    rw [List.all_eq_true]
    intro k hkm
    obtain ⟨j, hj, rfl⟩ := List.mem_iff_getElem.1 hkm
    obtain ⟨i, -, e, -⟩ := he j ks[j] (List.getElem?_eq_getElem hj)
    exact decide_eq_true (List.mem_of_getElem? e)

omit [DecidableEq F] in
theorem put_length (d : List A) (p : List Nat) (v : List A) : (put d p v).length = d.length := by
  unfold put
  generalize p.zip v = z
  induction z generalizing d with
  | nil => rfl
  | cons x z ih => rw [List.foldl_cons, ih, List.length_set]

omit [DecidableEq F] in
theorem put_other (d : List A) (p : List Nat) (v : List A) {i : Nat} (hi : i ∉ p) : (put d p v)[i]? = d[i]? := by
  unfold put
  have : ∀ x ∈ p.zip v, x.1 ≠ i := fun x hx e => hi (e ▸ (List.of_mem_zip hx).1)
  generalize p.zip v = z at this
  induction z generalizing d with
  | nil => rfl
  | cons x z ih =>
    rw [List.foldl_cons, ih _ (fun y hy => this y (List.mem_cons_of_mem _ hy)), List.getElem?_set_ne (this x List.mem_cons_self)]

omit [DecidableEq F] in
theorem put_at {p : List Nat} (hp : p.Nodup) : ∀ (d v : List A) {i j : Nat} {a : A}, i < d.length → p[j]? = some i → v[j]? = some a → (put d p v)[i]? = some a := by
  induction p with
  | nil => intro d v i j a _ h _; cases h
  | cons x p ih =>
    intro d v i j a hi h1 h2
    rw [List.nodup_cons] at hp
    cases v with
    | nil => cases h2
    | cons b v =>
      have e : put d (x :: p) (b :: v) = put (d.set x b) p v := rfl
      rw [e]
      cases j with
      | zero =>
        simp only [List.getElem?_cons_zero, Option.some.injEq] at h1 h2
        subst h1; subst h2
        rw [put_other _ _ _ hp.1, List.getElem?_set_self hi]
      | succ j =>
        rw [List.getElem?_cons_succ] at h1 h2
        exact ih hp.2 _ _ (by rw [List.length_set]; exact hi) h1 h2

/-- C218: a value is set exactly for records that meet the conditions; other values stay. -/
theorem set_partial {t : Tab F A} (h : Good t) {f : F} (hf : f ∈ t.fields) (use : Option Bool) (andArgs : Bool) (l : List (F × (A → Bool)))
    (hm : use.getD true = true → andArgs = true) (hl : ∃ c ∈ l, c.1 ∈ t.fields) (v : A) :
    (t.set f (.one v) { useMask := use, conds := some l, andArgs := andArgs }).2 = none ∧
    (∀ i, Asked t (use.getD true) andArgs l i → ((t.set f (.one v) { useMask := use, conds := some l, andArgs := andArgs }).1.data f)[i]? = some v) ∧
    ∀ g i, g ≠ f ∨ ¬ Asked t (use.getD true) andArgs l i →
      ((t.set f (.one v) { useMask := use, conds := some l, andArgs := andArgs }).1.data g)[i]? = (t.data g)[i]? := by
  have hq : t.query { useMask := use, conds := some l, andArgs := andArgs } = t.conds (use.getD true) andArgs l := rfl
  unfold Tab.set
  rw [hq]
  cases hs : t.conds (use.getD true) andArgs l with
  | error e =>
    obtain ⟨c, h1, h2⟩ := hl
    exact absurd h2 ((conds_error t _ _ _).1 ⟨e, hs⟩ c h1)
  | ok s =>
    obtain ⟨m, rfl, hp⟩ := conds_pos h hm hs
    dsimp only
    rw [if_neg (not_not.2 hf), if_pos (List.all_eq_true.2 (fun i hi => decide_eq_true (mask_pos_lt m i hi)))]
    unfold Value.list
    dsimp only
    refine ⟨rfl, fun i hi => ?_, fun g i hgi => ?_⟩
    · rw [if_pos rfl]
      have hi' := (hp i).2 hi
      obtain ⟨j, hj, e⟩ := List.mem_iff_getElem.1 hi'
      refine put_at ((mask_sorted m).imp (fun h => Nat.ne_of_lt h)) _ _ (by rw [h.data f hf]; exact mask_pos_lt m i hi') (j := j) ?_ ?_
      · rw [List.getElem?_eq_getElem hj, e]
      · rw [List.getElem?_replicate, if_pos hj]
    · by_cases hg : g = f
      · subst hg
        rw [if_pos rfl]
        exact put_other _ _ _ (fun hi => (hgi.resolve_left (by simp)) ((hp i).1 hi))
      · rw [if_neg hg]

/-- C218: the values of an array are set one after the other for header keys. -/
theorem set_keys {t : Tab F A} (h : Good t) (hn : t.keys.Nodup) {f : F} (hf : f ∈ t.fields) {ks : List Nat} (hk : ks.Nodup) (hm : ∀ k ∈ ks, k ∈ t.keys) {v : List A}
    (hl : v.length = ks.length) :
    (t.set f (.array v) { header := some ks }).2 = none ∧
    ∀ (i k : Nat), t.keys[i]? = some k →
      (∀ (j : Nat), ks[j]? = some k → ((t.set f (.array v) { header := some ks }).1.data f)[i]? = v[j]?) ∧
      ∀ g, g ≠ f ∨ k ∉ ks → ((t.set f (.array v) { header := some ks }).1.data g)[i]? = (t.data g)[i]? := by
  have hq : t.query { header := some ks } =
      if ks.all (fun x => decide (x ∈ t.keys)) then .ok (.at (ks.map t.keys.idxOf)) else .error .noKey := rfl
  have hlt : ∀ k ∈ t.keys, t.keys.idxOf k < t.size := fun k hk => h.keys ▸ List.idxOf_lt_length_of_mem hk
  have hp : ∀ i ∈ (Sel.at (ks.map t.keys.idxOf)).pos t.size, i < t.size := by
    intro i hi
    obtain ⟨k, h1, rfl⟩ := List.mem_map.1 hi
    exact hlt k (hm k h1)
  have hpos : (Sel.at (ks.map t.keys.idxOf)).pos t.size = ks.map t.keys.idxOf := rfl
  unfold Tab.set
  rw [hq, if_pos (List.all_eq_true.2 (fun k h => decide_eq_true (hm k h)))]
  dsimp only
  rw [if_neg (not_not.2 hf), if_pos (List.all_eq_true.2 (fun i hi => decide_eq_true (hp i hi))), hpos, List.length_map]
  unfold Value.list
  dsimp only
  rw [if_pos hl]
  refine ⟨rfl, fun i k hi => ?_⟩
  have hik : t.keys.idxOf k = i := by
    obtain ⟨h1, rfl⟩ := List.getElem?_eq_some_iff.1 hi
    exact hn.idxOf_getElem i h1
  constructor
  · intro j hj
    dsimp only
    rw [if_pos rfl]
    have hj' : j < v.length := by rw [hl]; exact (List.getElem?_eq_some_iff.1 hj).1
    rw [List.getElem?_eq_getElem hj']
    refine put_at ?_ _ _ ?_ (j := j) ?_ (List.getElem?_eq_getElem hj')
    · exact List.Nodup.map_on (fun a ha b _ e => (List.idxOf_inj (hm a ha)).1 e) hk
    · rw [h.data f hf, ← h.keys]
      exact (List.getElem?_eq_some_iff.1 hi).1
    · rw [List.getElem?_map, hj, Option.map_some, hik]
  · intro g hg
    dsimp only
    by_cases hgf : g = f
    · subst hgf
      rw [if_pos rfl]
      refine put_other _ _ _ (fun hmem => ?_)
      obtain ⟨k', h1, h2⟩ := List.mem_map.1 hmem
      have : k' = k := (List.idxOf_inj (hm k' h1)).1 (h2.trans hik.symm)
      exact (hg.resolve_left (by simp)) (this ▸ h1)
    · rw [if_neg hgf]

/-- Values are changed one time after the other. -/
def Tab.sets (t : Tab F A) : List (F × Value A × Query F A) → Tab F A
  | [] => t
  | c :: l => ((t.set c.1 c.2.1 c.2.2).1).sets l

/-- What a table was before, as far as is stored. -/
def Tab.before (t : Tab F A) (g : F) : List A := (t.stored g).getD (t.data g)

theorem set_before (t : Tab F A) (f : F) (v : Value A) (q : Query F A) (g : F) : (t.set f v q).1.before g = t.before g := by
  have key : ∀ (d : F → List A), (∀ g, g ≠ f → d g = t.data g) →
      ((fun g => if g = f then (match t.stored f with | some d => some d | none => some (t.data f)) else t.stored g) g).getD (d g) = (t.stored g).getD (t.data g) := by
    intro d hd
    dsimp only
    by_cases hg : g = f
    · subst hg
      rw [if_pos rfl]
      cases t.stored g <;> rfl
    · rw [if_neg hg, hd g hg]
  unfold Tab.set
  split
  · rfl
  · split
    · rfl
    · dsimp only
      split
      · split
        · exact key _ (fun g hg => if_neg hg)
        · exact key _ (fun g _ => rfl)
      · exact key _ (fun g _ => rfl)

/-- C218: `reset_values` gives back what the table was before any changes, whether they succeeded or not. -/
theorem reset_restores {t : Tab F A} (h : ∀ g, t.stored g = none) (l : List (F × Value A × Query F A)) :
    ∃ u, (t.sets l).reset none = .ok u ∧ u.data = t.data ∧ ∀ g, u.stored g = none := by
  refine ⟨_, rfl, ?_, fun g => rfl⟩
  funext g
  show (t.sets l).before g = t.data g
  have : ∀ (l : List (F × Value A × Query F A)) (t : Tab F A), (t.sets l).before g = t.before g := by
    intro l
    induction l with
    | nil => intro t; rfl
    | cons c l ih =>
      intro t
      show ((t.set c.1 c.2.1 c.2.2).1.sets l).before g = _
      rw [ih, set_before]
  rw [this]
  unfold Tab.before
  rw [h]
  rfl

/-- C218: only the fields that are named are given back; a field that was not changed is refused. -/
theorem reset_named (t : Tab F A) (l : List F) :
    ((∃ u, t.reset (some l) = .ok u) ↔ ∀ f ∈ l, ∃ d, t.stored f = some d) ∧
    ∀ u, t.reset (some l) = .ok u → (∀ f ∈ l, t.stored f = some (u.data f) ∧ u.stored f = none) ∧ ∀ f ∉ l, u.data f = t.data f ∧ u.stored f = t.stored f := by
  unfold Tab.reset
  dsimp only
  by_cases h : l.all (fun f => (t.stored f).isSome) = true
  · rw [if_pos h]
    rw [List.all_eq_true] at h
    refine ⟨⟨fun _ f hf => Option.isSome_iff_exists.1 (h f hf), fun _ => ⟨_, rfl⟩⟩, fun u hu => ?_⟩
    obtain rfl := Except.ok.inj hu
    refine ⟨fun f hf => ⟨?_, if_pos hf⟩, fun f hf => ⟨if_neg hf, if_neg hf⟩⟩
    dsimp only
    rw [if_pos hf]
    obtain ⟨d, hd⟩ := Option.isSome_iff_exists.1 (h f hf)
    rw [hd]
    rfl
  · rw [if_neg h]
    refine ⟨⟨fun ⟨_, h⟩ => (by cases h), fun hc => absurd ?_ h⟩, fun u hu => by cases hu⟩
    rw [List.all_eq_true]
    exact fun f hf => Option.isSome_iff_exists.2 (hc f hf)

/-- Line 1171: with alternatives, all records that are used are taken whatever the conditions are, and records that are not used if they meet one. -/
theorem or_counterexample {t : Tab F A} (h : Good t) {f : F} (hf : f ∈ t.fields) {l : List (F × (A → Bool))} (hl : ∃ c ∈ l, c.1 ∈ t.fields) :
    ∃ v, t.get f { conds := some l, andArgs := false } = .ok v ∧
      ValuesOf t f (fun i => i < t.size ∧ (t.mask[i]? = some true ∨ ∃ c ∈ l, c.1 ∈ t.fields ∧ Meets t i c)) v := by
  have hq : t.query { conds := some l, andArgs := false } = t.conds true false l := rfl
  unfold Tab.get
  rw [hq]
  unfold Tab.conds
  dsimp only
  have hne : (l.filter (fun c => decide (c.1 ∈ t.fields))).isEmpty = false := by
    obtain ⟨c, h1, h2⟩ := hl
    rw [List.isEmpty_eq_false_iff]
    exact List.ne_nil_of_mem (List.mem_filter.2 ⟨h1, decide_eq_true h2⟩)
  rw [hne]
  simp only [Bool.false_eq_true, if_false, if_true]
  rw [if_neg (not_not.2 hf), if_pos (List.all_eq_true.2 (fun i hi => decide_eq_true (mask_pos_lt _ i hi)))]
  refine ⟨_, rfl, _, mask_sorted _, fun i => ?_, values_of h hf (mask_pos_lt _)⟩
  unfold Sel.pos
  dsimp only
  rw [List.mem_filter, List.mem_range]
  refine and_congr_right (fun hi => ?_)
  have := fold_at h (andArgs := false) hi (l.filter (fun c => decide (c.1 ∈ t.fields))) (fun c hc => of_decide_eq_true (List.mem_filter.1 hc).2) _ h.mask
  simp only [Bool.false_eq_true, if_false] at this
  rw [this]
  have hmask : t.mask.getD i false = true ↔ t.mask[i]? = some true := by
    rw [List.getD_eq_getElem?_getD, List.getElem?_eq_getElem (by rw [h.mask]; exact hi)]
    simp
  rw [hmask]
  refine or_congr_right ⟨fun ⟨c, h1, h2⟩ => ?_, fun ⟨c, h1, h2, h3⟩ => ⟨c, List.mem_filter.2 ⟨h1, decide_eq_true h2⟩, h3⟩⟩
  obtain ⟨h3, h4⟩ := List.mem_filter.1 h1
  exact ⟨c, h3, of_decide_eq_true h4, h2⟩

end Verif.MirGet
