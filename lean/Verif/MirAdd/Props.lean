import Verif.MirAdd.Model

/-! Theorems about the addition of MIR tables. -/

namespace Verif.MirAdd

variable {A : Type} [DecidableEq A]

/-- The record for a key of both tables: that of the second table if it may overwrite, otherwise the one that is used (if the first one is not, that
of the second table). -/
def chosen (overwrite : Option Bool) (r s : Rec A) : A := if overwrite = some true then s.data else if r.good then r.data else s.data

/-- What the sum of tables should contain. -/
def InSum (overwrite : Option Bool) (t u : List (Rec A)) (x : Rec A) : Prop :=
  (x ∈ t ∧ ∀ s ∈ u, s.key ≠ x.key) ∨ (x ∈ u ∧ ∀ r ∈ t, r.key ≠ x.key) ∨
  ∃ r ∈ t, ∃ s ∈ u, r.key = s.key ∧ x = ⟨r.key, chosen overwrite r s, r.good || s.good⟩

/-- Records of a key contradict each other: they cannot be combined. -/
def Conflict (overwrite : Option Bool) (t u : List (Rec A)) : Prop :=
  match overwrite with
  | some true => False
  | some false => ∃ r ∈ t, ∃ s ∈ u, r.key = s.key ∧ r.data ≠ s.data
  | none => ∃ r ∈ t, ∃ s ∈ u, r.key = s.key ∧ r.data ≠ s.data ∧ r.good = true ∧ s.good = true

omit [DecidableEq A] in
theorem mem_keys {t : List (Rec A)} {k : Nat} : k ∈ keys t ↔ ∃ r ∈ t, r.key = k := by
  unfold keys
  rw [List.mem_insertionSort, List.mem_map]

omit [DecidableEq A] in
theorem find_some {t : List (Rec A)} (hn : (t.map Rec.key).Nodup) {r : Rec A} (hr : r ∈ t) : find t r.key = some r := by
  unfold find
  induction t with
  | nil => cases hr
  | cons x t ih =>
    rw [List.map_cons, List.nodup_cons] at hn
    rcases List.mem_cons.1 hr with rfl | h
    · rw [List.find?_cons_of_pos (by simp)]
    · have : x.key ≠ r.key := fun e => hn.1 (e ▸ List.mem_map.2 ⟨r, h, rfl⟩)
      rw [List.find?_cons_of_neg (by simpa using this)]
      exact ih hn.2 h

omit [DecidableEq A] in
theorem good_eq {t : List (Rec A)} (hn : (t.map Rec.key).Nodup) {r : Rec A} (hr : r ∈ t) : good t r.key = r.good := by
  unfold good
  rw [find_some hn hr]
  rfl

omit [DecidableEq A] in
theorem keys_sorted {t : List (Rec A)} (hs : (t.map Rec.key).Pairwise (· < ·)) : keys t = t.map Rec.key :=
  List.Pairwise.insertionSort_eq (hs.imp (fun h => Nat.le_of_lt h))

/-- With sorted records the order of the dictionary is that of the records. -/
theorem both_eq {t u : List (Rec A)} (hn : (t.map Rec.key).Nodup) (hm : (u.map Rec.key).Nodup)
    (hs : t.map Rec.key = u.map Rec.key → (t.map Rec.key).Pairwise (· < ·)) :
    both t u (decide (t.map Rec.key = u.map Rec.key)) ((keys t).filter (fun k => decide (k ∈ keys u))) = both t u false ((keys t).filter (fun k => decide (k ∈ keys u))) := by
  by_cases h : t.map Rec.key = u.map Rec.key
  · have e1 : (keys t).filter (fun k => decide (k ∈ keys u)) = t.map Rec.key := by
      rw [List.filter_eq_self.2, keys_sorted (hs h)]
      intro k hk
      refine decide_eq_true ?_
      rw [keys_sorted (hs h)] at hk
      rw [keys_sorted (h ▸ hs h), ← h]
      exact hk
    rw [e1, decide_eq_true h]
    unfold both
    simp only [if_true, Bool.false_eq_true, if_false]
    have gen : ∀ (a b : List (Rec A)), a.map Rec.key = b.map Rec.key → (∀ r ∈ a, r ∈ t) → (∀ r ∈ b, r ∈ u) →
        ((a.map Rec.key).zip (a.zip b)).map (fun p => (⟨p.1, p.2.1.good, p.2.2.good, decide (p.2.1.data = p.2.2.data)⟩ : Both)) =
          (a.map Rec.key).map (fun k => ⟨k, good t k, good u k, decide ((find t k).map Rec.data = (find u k).map Rec.data)⟩) := by
      intro a
      induction a with
      | nil => intro b _ _ _; rfl
      | cons x a ih =>
        intro b hb h1 h2
        cases b with
        | nil => cases hb
        | cons y b =>
          simp only [List.map_cons, List.cons.injEq] at hb
          have hx := h1 x List.mem_cons_self
          have hy := h2 y List.mem_cons_self
          simp only [List.map_cons, List.zip_cons_cons]
          rw [ih b hb.2 (fun r hr => h1 r (List.mem_cons_of_mem _ hr)) (fun r hr => h2 r (List.mem_cons_of_mem _ hr))]
          congr 1
          have e1 := find_some hn hx
          have e2 := find_some hm hy
          rw [← hb.1] at e2
          have g1 := good_eq hn hx
          have g2 := good_eq hm hy
          rw [← hb.1] at g2
          rw [e1, e2, g1, g2]
          simp
    exact gen t u h (fun _ h => h) (fun _ h => h)
  · rw [decide_eq_false h]

/-- A record of the overlap. -/
theorem mem_both {t u : List (Rec A)} (hn : (t.map Rec.key).Nodup) (hm : (u.map Rec.key).Nodup) (b : Both) :
    b ∈ both t u false ((keys t).filter (fun k => decide (k ∈ keys u))) ↔
      ∃ r ∈ t, ∃ s ∈ u, r.key = s.key ∧ b = ⟨r.key, r.good, s.good, decide (r.data = s.data)⟩ := by
  unfold both
  simp only [Bool.false_eq_true, if_false, List.mem_map, List.mem_filter, decide_eq_true_eq, mem_keys]
  constructor
  · rintro ⟨k, ⟨⟨r, hr, rfl⟩, s, hs, e⟩, rfl⟩
    refine ⟨r, hr, s, hs, e.symm, ?_⟩
    have e2 := find_some hm hs
    have g2 := good_eq hm hs
    rw [e] at e2 g2
    rw [find_some hn hr, good_eq hn hr, e2, g2]
    simp
  · rintro ⟨r, hr, s, hs, e, rfl⟩
    refine ⟨r.key, ⟨⟨r, hr, rfl⟩, s, hs, e.symm⟩, ?_⟩
    have e2 := find_some hm hs
    have g2 := good_eq hm hs
    rw [← e] at e2 g2
    rw [find_some hn hr, good_eq hn hr, e2, g2]
    simp

omit [DecidableEq A] in
theorem mem_keep {t u : List (Rec A)} {overlap kept : List Nat} {x : Rec A} : x ∈ keep t u overlap kept ↔
    ∃ r ∈ t, r.key ∈ kept ∧ x = ⟨r.key, r.data, r.good || (decide (r.key ∈ overlap) && good u r.key)⟩ := by
  unfold keep
  simp only [List.mem_map, List.mem_filter, decide_eq_true_eq]
  constructor
  · rintro ⟨r, ⟨h1, h2⟩, rfl⟩
    exact ⟨r, h1, h2, rfl⟩
  · rintro ⟨r, h1, h2, rfl⟩
    exact ⟨r, ⟨h1, h2⟩, rfl⟩

/-- Which record is dropped. -/
theorem resolve_spec {overwrite : Option Bool} {t u : List (Rec A)} (hn : (t.map Rec.key).Nodup) {l : List Both}
    (hl : ∀ b, b ∈ l ↔ ∃ r ∈ t, ∃ s ∈ u, r.key = s.key ∧ b = ⟨r.key, r.good, s.good, decide (r.data = s.data)⟩) (hm : (u.map Rec.key).Nodup) :
    (resolve overwrite l = none ↔ Conflict overwrite t u) ∧
    ∀ d, resolve overwrite l = some d → ∀ r ∈ t, ∀ s ∈ u, r.key = s.key →
      (r.key ∈ d → chosen overwrite r s = s.data) ∧ (r.key ∉ d → chosen overwrite r s = r.data) := by
  have uniq : ∀ r ∈ t, ∀ s ∈ u, r.key = s.key → ∀ b ∈ l, b.key = r.key → b = ⟨r.key, r.good, s.good, decide (r.data = s.data)⟩ := by
    intro r hr s hs e b hb hk
    obtain ⟨r', hr', s', hs', e', rfl⟩ := (hl b).1 hb
    dsimp only at hk
    have h1 : r' = r := by
      have a := find_some hn hr'
      have b := find_some hn hr
      rw [hk, b] at a
      exact (Option.some.inj a).symm
    have h2 : s' = s := by
      have a := find_some hm hs'
      have b := find_some hm hs
      rw [← e', hk, e, b] at a
      exact (Option.some.inj a).symm
    rw [h1, h2]
  have mem : ∀ r ∈ t, ∀ s ∈ u, r.key = s.key → (⟨r.key, r.good, s.good, decide (r.data = s.data)⟩ : Both) ∈ l :=
    fun r hr s hs e => (hl _).2 ⟨r, hr, s, hs, e, rfl⟩
  have inmap : ∀ (p : Both → Bool) r, r ∈ t → ∀ s ∈ u, r.key = s.key →
      (r.key ∈ (l.filter p).map Both.key ↔ p ⟨r.key, r.good, s.good, decide (r.data = s.data)⟩ = true) := by
    intro p r hr s hs e
    rw [List.mem_map]
    constructor
    · rintro ⟨b, hb, hk⟩
      obtain ⟨h1, h2⟩ := List.mem_filter.1 hb
      rw [← uniq r hr s hs e b h1 hk]
      exact h2
    · intro h
      exact ⟨_, List.mem_filter.2 ⟨mem r hr s hs e, h⟩, rfl⟩
  have inall : ∀ r ∈ t, ∀ s ∈ u, r.key = s.key → r.key ∈ l.map Both.key := fun r hr s hs e => List.mem_map.2 ⟨_, mem r hr s hs e, rfl⟩
  have alleq : l.all Both.equal = true ↔ ∀ r ∈ t, ∀ s ∈ u, r.key = s.key → r.data = s.data := by
    rw [List.all_eq_true]
    constructor
    · intro h r hr s hs e
      exact of_decide_eq_true (h _ (mem r hr s hs e))
    · intro h b hb
      obtain ⟨r, hr, s, hs, e, rfl⟩ := (hl b).1 hb
      exact decide_eq_true (h r hr s hs e)
  unfold resolve
  by_cases h1 : overwrite = some true
  · rw [if_pos h1]
    subst h1
    refine ⟨⟨fun h => (by cases h), fun h => False.elim h⟩, ?_⟩
    rintro d hd r hr s hs e
    obtain rfl := Option.some.inj hd
    exact ⟨fun _ => rfl, fun h => absurd (inall r hr s hs e) h⟩
  · rw [if_neg h1]
    have hch : ∀ r s : Rec A, chosen overwrite r s = if r.good then r.data else s.data := by
      intro r s
      unfold chosen
      rw [if_neg h1]
    by_cases h2 : overwrite = none ∧ l.all (fun b => !(b.good1 && b.good2)) = true
    · rw [if_pos h2]
      obtain ⟨rfl, h2⟩ := h2
      rw [List.all_eq_true] at h2
      refine ⟨⟨fun h => (by cases h), ?_⟩, ?_⟩
      · rintro ⟨r, hr, s, hs, e, -, g1, g2⟩
        have := h2 _ (mem r hr s hs e)
        simp [g1, g2] at this
      · intro d hd r hr s hs e
        obtain rfl := Option.some.inj hd
        rw [inmap _ r hr s hs e, hch]
        dsimp only
        cases r.good <;> simp
    · rw [if_neg h2]
      by_cases h3 : l.all Both.equal = true
      · rw [if_pos h3]
        have h3' := alleq.1 h3
        refine ⟨⟨fun h => (by cases h), ?_⟩, ?_⟩
        · intro hc
          cases overwrite with
          | none =>
            obtain ⟨r, hr, s, hs, e, h, -⟩ := hc
            exact absurd (h3' r hr s hs e) h
          | some b =>
            cases b with
            | true => exact absurd rfl h1
            | false =>
              obtain ⟨r, hr, s, hs, e, h⟩ := hc
              exact absurd (h3' r hr s hs e) h
        · intro d _ r hr s hs e
          rw [hch, h3' r hr s hs e]
          exact ⟨fun _ => ite_self _, fun _ => ite_self _⟩
      · rw [if_neg h3]
        by_cases h4 : overwrite ≠ none
        · rw [if_pos h4]
          cases overwrite with
          | none => exact absurd rfl h4
          | some b =>
            cases b with
            | true => exact absurd rfl h1
            | false =>
              refine ⟨⟨fun _ => ?_, fun _ => rfl⟩, fun d hd => by cases hd⟩
              by_contra hc
              apply h3
              rw [alleq]
              intro r hr s hs e
              by_contra hd
              exact hc ⟨r, hr, s, hs, e, hd⟩
        · rw [if_neg h4]
          obtain rfl := not_not.1 h4
          by_cases h5 : l.all (fun b => b.equal || !b.good1 || !b.good2) = true
          · rw [if_pos h5]
            rw [List.all_eq_true] at h5
            refine ⟨⟨fun h => (by cases h), ?_⟩, ?_⟩
            · rintro ⟨r, hr, s, hs, e, hd, g1, g2⟩
              have := h5 _ (mem r hr s hs e)
              simp [g1, g2, hd] at this
            · intro d hd r hr s hs e
              obtain rfl := Option.some.inj hd
              rw [inmap _ r hr s hs e, hch]
              dsimp only
              by_cases he : r.data = s.data
              · rw [he]
                exact ⟨fun _ => ite_self _, fun _ => ite_self _⟩
              · cases r.good <;> simp [he]
          · rw [if_neg h5]
            refine ⟨⟨fun _ => ?_, fun _ => rfl⟩, fun d hd => by cases hd⟩
            by_contra hc
            apply h5
            rw [List.all_eq_true]
            intro b hb
            obtain ⟨r, hr, s, hs, e, rfl⟩ := (hl b).1 hb
            dsimp only
            by_contra hx
            simp only [Bool.or_eq_true, decide_eq_true_eq, Bool.not_eq_true', not_or, Bool.not_eq_false] at hx
            exact hc ⟨r, hr, s, hs, e, hx.1.1, hx.1.2, hx.2⟩

theorem resolve_sub {overwrite : Option Bool} {l : List Both} {d : List Nat} (h : resolve overwrite l = some d) : ∀ k ∈ d, k ∈ l.map Both.key := by
  have sub : ∀ (p : Both → Bool) (k : Nat), k ∈ (l.filter p).map Both.key → k ∈ l.map Both.key := by
    intro p k hk
    obtain ⟨b, hb, e⟩ := List.mem_map.1 hk
    exact List.mem_map.2 ⟨b, (List.mem_filter.1 hb).1, e⟩
  unfold resolve at h
  intro k hk
  split at h
  · obtain rfl := Option.some.inj h; exact hk
  · split at h
    · obtain rfl := Option.some.inj h; exact sub _ k hk
    · split at h
      · obtain rfl := Option.some.inj h; exact hk
      · split at h
        · cases h
        · split at h
          · obtain rfl := Option.some.inj h; exact sub _ k hk
          · cases h

/-- C216: tables are added exactly if this is allowed and their records do not contradict each other; the sum has the records of both, one for each
key, and a record is used if one of its key is. -/
theorem sum_partial {t u : List (Rec A)} (hn : (t.map Rec.key).Nodup) (hm : (u.map Rec.key).Nodup)
    (hs : t.map Rec.key = u.map Rec.key → (t.map Rec.key).Pairwise (· < ·)) (merge overwrite : Option Bool) :
    ((∃ l, addTables t u merge overwrite false = .ok l) ↔
      (merge = some true → t.map Rec.key = u.map Rec.key) ∧ (merge = some false → ∀ r ∈ t, ∀ s ∈ u, r.key ≠ s.key) ∧ ¬ Conflict overwrite t u) ∧
    ∀ l, addTables t u merge overwrite false = .ok l → (l.map Rec.key).Nodup ∧ ∀ x, x ∈ l ↔ InSum overwrite t u x := by
  have hd : dicts t u false = .ok (decide (t.map Rec.key = u.map Rec.key), keys t, keys u) := rfl
  have ho : (keys t).filter (fun k => decide (k ∈ keys u)) ≠ [] ↔ ∃ r ∈ t, ∃ s ∈ u, r.key = s.key := by
    constructor
    · intro h
      obtain ⟨k, hk⟩ := List.exists_mem_of_ne_nil _ h
      simp only [List.mem_filter, decide_eq_true_eq, mem_keys] at hk
      obtain ⟨⟨r, hr, rfl⟩, s, hs, e⟩ := hk
      exact ⟨r, hr, s, hs, e.symm⟩
    · rintro ⟨r, hr, s, hs, e⟩
      refine List.ne_nil_of_mem (a := r.key) ?_
      simp only [List.mem_filter, decide_eq_true_eq, mem_keys]
      exact ⟨⟨r, hr, rfl⟩, s, hs, e.symm⟩
  have hmo : ∀ k, k ∈ (keys t).filter (fun k => decide (k ∈ keys u)) ↔ (∃ r ∈ t, r.key = k) ∧ ∃ s ∈ u, s.key = k := by
    intro k
    simp only [List.mem_filter, decide_eq_true_eq, mem_keys]
  obtain ⟨R1, R2⟩ := resolve_spec (overwrite := overwrite) (t := t) (u := u) hn (mem_both hn hm) hm
  unfold addTables
  rw [if_neg (by simp), hd]
  dsimp only
  rw [both_eq hn hm hs]
  by_cases c1 : merge = some true ∧ t.map Rec.key ≠ u.map Rec.key
  · rw [if_pos c1]
    exact ⟨⟨fun ⟨_, h⟩ => (by cases h), fun h => absurd (h.1 c1.1) c1.2⟩, fun l h => by cases h⟩
  · rw [if_neg c1]
    have c1' : merge = some true → t.map Rec.key = u.map Rec.key := fun h => by
      by_contra hc
      exact c1 ⟨h, hc⟩
    by_cases c2 : (keys t).filter (fun k => decide (k ∈ keys u)) ≠ [] ∧ merge = some false
    · rw [if_pos c2]
      refine ⟨⟨fun ⟨_, h⟩ => (by cases h), fun h => ?_⟩, fun l h => by cases h⟩
      obtain ⟨r, hr, s, hs, e⟩ := ho.1 c2.1
      exact absurd e (h.2.1 c2.2 r hr s hs)
    · rw [if_neg c2]
      have c2' : merge = some false → ∀ r ∈ t, ∀ s ∈ u, r.key ≠ s.key := fun h r hr s hs e => c2 ⟨ho.2 ⟨r, hr, s, hs, e⟩, h⟩
      cases hr : resolve overwrite (both t u false ((keys t).filter (fun k => decide (k ∈ keys u)))) with
      | none => exact ⟨⟨fun ⟨_, h⟩ => (by cases h), fun h => absurd (R1.1 hr) h.2.2⟩, fun l h => by cases h⟩
      | some d =>
        have R2' := R2 d hr
        refine ⟨⟨fun _ => ⟨c1', c2', fun hc => ?_⟩, fun _ => ⟨_, rfl⟩⟩, ?_⟩
        · rw [R1.2 hc] at hr
          cases hr
        · intro l hl
          dsimp only at hl
          obtain rfl := Except.ok.inj hl
          have k1 : ∀ k, k ∈ (keys t).filter (fun k => decide (k ∉ d)) ↔ (∃ r ∈ t, r.key = k) ∧ k ∉ d := by
            intro k
            rw [List.mem_filter, decide_eq_true_eq, mem_keys]
          have k2 : ∀ k, k ∈ (keys u).filter (fun k => !(decide (k ∈ (keys t).filter (fun k => decide (k ∈ keys u))) && decide (k ∉ d))) ↔
              (∃ s ∈ u, s.key = k) ∧ ((∃ r ∈ t, r.key = k) → k ∈ d) := by
            intro k
            rw [List.mem_filter, mem_keys]
            simp only [Bool.not_eq_true', Bool.and_eq_false_iff, decide_eq_false_iff_not, not_not, hmo]
            constructor
            · rintro ⟨h1, h2⟩
              refine ⟨h1, fun h3 => ?_⟩
              rcases h2 with h2 | h2
              · exact absurd ⟨h3, h1⟩ h2
              · exact h2
            · rintro ⟨h1, h2⟩
              refine ⟨h1, ?_⟩
              by_cases h3 : ∃ r ∈ t, r.key = k
              · exact Or.inr (h2 h3)
              · exact Or.inl (fun h => h3 h.1)
          constructor
          · rw [List.map_append, List.nodup_append]
            have sub : ∀ (a b : List (Rec A)) (o kp : List Nat), (keep a b o kp).map Rec.key = (a.filter (fun r => decide (r.key ∈ kp))).map Rec.key := by
              intro a b o kp
              unfold keep
              rw [List.map_map]
              rfl
            rw [sub, sub]
            refine ⟨hn.sublist (List.filter_sublist.map _), hm.sublist (List.filter_sublist.map _), ?_⟩
            intro a ha b hb e
            subst e
            obtain ⟨r, hr1, rfl⟩ := List.mem_map.1 ha
            obtain ⟨s, hs1, e⟩ := List.mem_map.1 hb
            obtain ⟨r1, r2⟩ := List.mem_filter.1 hr1
            obtain ⟨s1, s2⟩ := List.mem_filter.1 hs1
            have a1 := ((k1 _).1 (of_decide_eq_true r2)).2
            have a2 := ((k2 _).1 (of_decide_eq_true s2)).2 ⟨r, r1, e.symm⟩
            exact a1 (e ▸ a2)
          · intro x
            rw [List.mem_append, mem_keep, mem_keep]
            unfold InSum
            constructor
            · rintro (⟨r, hr1, hk, rfl⟩ | ⟨s, hs1, hk, rfl⟩)
              · have hnd := ((k1 _).1 hk).2
                by_cases hu : ∃ s ∈ u, s.key = r.key
                · obtain ⟨s, hs1, e⟩ := hu
                  refine Or.inr (Or.inr ⟨r, hr1, s, hs1, e.symm, ?_⟩)
                  have g := good_eq hm hs1
                  rw [e] at g
                  rw [(R2' r hr1 s hs1 e.symm).2 hnd, decide_eq_true ((hmo _).2 ⟨⟨r, hr1, rfl⟩, s, hs1, e⟩), g]
                  rfl
                · left
                  have : r.key ∉ (keys t).filter (fun k => decide (k ∈ keys u)) := fun h => hu ((hmo _).1 h).2
                  rw [decide_eq_false this, Bool.false_and, Bool.or_false]
                  exact ⟨hr1, fun s hs1 e => hu ⟨s, hs1, e⟩⟩
              · have hd2 := ((k2 _).1 hk).2
                by_cases ht : ∃ r ∈ t, r.key = s.key
                · obtain ⟨r, hr1, e⟩ := ht
                  refine Or.inr (Or.inr ⟨r, hr1, s, hs1, e, ?_⟩)
                  have g := good_eq hn hr1
                  rw [e] at g
                  have hin : r.key ∈ d := by rw [e]; exact hd2 ⟨r, hr1, e⟩
                  rw [(R2' r hr1 s hs1 e).1 hin, decide_eq_true ((hmo _).2 ⟨⟨r, hr1, e⟩, s, hs1, rfl⟩), g, e, Bool.true_and, Bool.or_comm]
                · right; left
                  have : s.key ∉ (keys t).filter (fun k => decide (k ∈ keys u)) := fun h => ht ((hmo _).1 h).1
                  rw [decide_eq_false this, Bool.false_and, Bool.or_false]
                  exact ⟨hs1, fun r hr1 e => ht ⟨r, hr1, e⟩⟩
            · rintro (⟨hx, hu⟩ | ⟨hx, ht⟩ | ⟨r, hr1, s, hs1, e, rfl⟩)
              · left
                have hnd : x.key ∉ d := by
                  intro hin
                  have : x.key ∈ (both t u false ((keys t).filter (fun k => decide (k ∈ keys u)))).map Both.key := by
                    have := resolve_sub hr
                    exact this _ hin
                  obtain ⟨b, hb, e⟩ := List.mem_map.1 this
                  obtain ⟨r, _, s, hs1, e', rfl⟩ := (mem_both hn hm b).1 hb
                  exact hu s hs1 (e'.symm.trans e)
                have : x.key ∉ (keys t).filter (fun k => decide (k ∈ keys u)) := fun h => by
                  obtain ⟨s, hs1, e⟩ := ((hmo _).1 h).2
                  exact hu s hs1 e
                refine ⟨x, hx, (k1 _).2 ⟨⟨x, hx, rfl⟩, hnd⟩, ?_⟩
                rw [decide_eq_false this, Bool.false_and, Bool.or_false]
              · right
                have : x.key ∉ (keys t).filter (fun k => decide (k ∈ keys u)) := fun h => by
                  obtain ⟨r, hr1, e⟩ := ((hmo _).1 h).1
                  exact ht r hr1 e
                refine ⟨x, hx, (k2 _).2 ⟨⟨x, hx, rfl⟩, fun ⟨r, hr1, e⟩ => absurd e (ht r hr1)⟩, ?_⟩
                rw [decide_eq_false this, Bool.false_and, Bool.or_false]
              · by_cases hin : r.key ∈ d
                · right
                  refine ⟨s, hs1, (k2 _).2 ⟨⟨s, hs1, rfl⟩, fun _ => e ▸ hin⟩, ?_⟩
                  have g := good_eq hn hr1
                  rw [e] at g
                  rw [(R2' r hr1 s hs1 e).1 hin, decide_eq_true ((hmo _).2 ⟨⟨r, hr1, e⟩, s, hs1, rfl⟩), g, e, Bool.true_and, Bool.or_comm]
                · left
                  refine ⟨r, hr1, (k1 _).2 ⟨⟨r, hr1, rfl⟩, hin⟩, ?_⟩
                  have g := good_eq hm hs1
                  rw [← e] at g
                  rw [(R2' r hr1 s hs1 e).2 hin, decide_eq_true ((hmo _).2 ⟨⟨r, hr1, rfl⟩, s, hs1, e.symm⟩), g, Bool.true_and]

end Verif.MirAdd
