import Verif.MirSel.Sel

/-! # Selections after each other, conditions that do nothing, and the keywords of `read_mir` -/

namespace Verif.MirSel
open Verif.Pol (Str)

variable {S : Type} [LinearOrder S]

/-- What a selection does not change. -/
structure Same (s s' : St S) : Prop where
  inn : s'.inn.has = s.inn.has
  bl : s'.bl.has = s.bl.has
  sp : s'.sp.has = s.sp.has
  eng : s'.eng.has = s.eng.has
  we : s'.we.has = s.we.has
  ac : s'.ac.has = s.ac.has
  cross : s'.cross = s.cross
  auto : s'.auto = s.auto
  ints : s'.fileInts = s.fileInts
  codes : s'.codes = s.codes
  innRows : s'.inn.rows.map (fun x => x.1) = s.inn.rows.map (fun x => x.1)
  weRows : s'.we.rows.map (fun x => x.1) = s.we.rows.map (fun x => x.1)

omit [LinearOrder S] in
theorem cut_has (t : Tab S) (p : Row S → Bool) : (t.cut p).has = t.has := rfl

omit [LinearOrder S] in
theorem cut_rows (t : Tab S) (p : Row S → Bool) : (t.cut p).rows.map (fun x => x.1) = t.rows.map (fun x => x.1) := by
  simp [Tab.cut, List.map_map, Function.comp_def]

theorem update_same (s : St S) : Same s (updateFilter s) := by
  have hite : ∀ (c : Prop) [Decidable c] (a b t : Tab S), a.has = t.has → b.has = t.has → (if c then a else b).has = t.has := by
    intro c _ a b t h1 h2; split <;> assumption
  have hrow : ∀ (c : Prop) [Decidable c] (a b t : Tab S), a.rows.map (fun x => x.1) = t.rows.map (fun x => x.1) →
      b.rows.map (fun x => x.1) = t.rows.map (fun x => x.1) →
      (if c then a else b).rows.map (fun x => x.1) = t.rows.map (fun x => x.1) := by
    intro c _ a b t h1 h2; split <;> assumption
  constructor
  case cross => rfl
  case auto => rfl
  case ints => rfl
  case codes => rfl
  all_goals simp only [updateFilter, setMask_and, cut_has, cut_rows]
  · exact hite _ _ _ _ (hite _ _ _ _ rfl rfl) (hite _ _ _ _ rfl rfl)
  · exact hite _ _ _ _ (hite _ _ _ _ rfl rfl) (hite _ _ _ _ rfl rfl)
  · exact hite _ _ _ _ rfl rfl
  · exact hite _ _ _ _ rfl rfl
  · refine hrow _ _ _ _ (hrow _ _ _ _ rfl (cut_rows _ _)) ?_
    rw [cut_rows]
    exact hrow _ _ _ _ rfl (cut_rows _ _)

theorem select_same {s s' : St S} {q : List (Cond S)} {andArgs : Bool} (h : select s (some (.list q)) andArgs true false = .ok s') :
    Same s s' := by
  obtain ⟨pin, pbl, psp, peng, pwe, pac, _, _, _, _, _, _, rfl⟩ := select_eq h
  have hu := update_same { s with
    inn := s.inn.cut pin, bl := s.bl.cut pbl, sp := s.sp.cut psp, eng := s.eng.cut peng
    we := s.we.cut pwe, ac := if s.auto then s.ac.cut pac else s.ac }
  refine ⟨hu.inn, hu.bl, hu.sp, hu.eng, hu.we, ?_, hu.cross, hu.auto, hu.ints, hu.codes, ?_, ?_⟩
  · rw [hu.ac]
    dsimp only
    split <;> rfl
  · rw [hu.innRows]; exact cut_rows _ _
  · rw [hu.weRows]; exact cut_rows _ _

omit [LinearOrder S] in
theorem same_weather {s s' : St S} (h : Same s s') (hw : Weather s) : Weather s' := by
  intro x hx
  have : x.1 ∈ s'.inn.rows.map (fun x => x.1) := List.mem_map.2 ⟨x, hx, rfl⟩
  rw [h.innRows] at this
  obtain ⟨y, hy, e⟩ := List.mem_map.1 this
  obtain ⟨z, hz, e'⟩ := hw y hy
  have : z.1 ∈ s.we.rows.map (fun x => x.1) := List.mem_map.2 ⟨z, hz, rfl⟩
  rw [← h.weRows] at this
  obtain ⟨z', hz', e2⟩ := List.mem_map.1 this
  exact ⟨z', hz', by rw [e2, e', e]⟩

/-- A record that stays was kept before and meets the conditions. -/
theorem select_sub {s s' : St S} {q : List (Cond S)} {andArgs : Bool} (h : select s (some (.list q)) andArgs true false = .ok s') :
    (∀ r ∈ s'.sp.kept, r ∈ s.sp.kept ∧ MeetsBy andArgs s.codes q s.sp r) ∧
    (∀ r ∈ s'.bl.kept, r ∈ s.bl.kept ∧ MeetsBy andArgs s.codes q s.bl r) ∧
    (∀ r ∈ s'.inn.kept, r ∈ s.inn.kept ∧ MeetsBy andArgs s.codes q s.inn r) ∧
    (∀ r ∈ s'.we.kept, r ∈ s.we.kept ∧ MeetsBy andArgs s.codes q s.we r) ∧
    (∀ r ∈ s'.eng.kept, r ∈ s.eng.kept ∧ MeetsBy andArgs s.codes q s.eng r) ∧
    (s.auto = true → ∀ r ∈ s'.ac.kept, r ∈ s.ac.kept ∧ MeetsBy andArgs s.codes q s.ac r) := by
  obtain ⟨pin, pbl, psp, peng, pwe, pac, h1, h2, h3, h4, h5, h6, rfl⟩ := select_eq h
  obtain ⟨u1, u2, u3, u4, u5, u6⟩ := update_sub { s with
    inn := s.inn.cut pin, bl := s.bl.cut pbl, sp := s.sp.cut psp, eng := s.eng.cut peng
    we := s.we.cut pwe, ac := if s.auto then s.ac.cut pac else s.ac }
  refine ⟨fun r hr => ?_, fun r hr => ?_, fun r hr => ?_, fun r hr => ?_, fun r hr => ?_, fun ha r hr => ?_⟩
  · have := mem_cut.1 (u1 r hr); exact ⟨this.1, (h3 r).1 this.2⟩
  · have := mem_cut.1 (u2 r hr); exact ⟨this.1, (h2 r).1 this.2⟩
  · have := mem_cut.1 (u3 r hr); exact ⟨this.1, (h1 r).1 this.2⟩
  · have := mem_cut.1 (u4 r hr); exact ⟨this.1, (h5 r).1 this.2⟩
  · have := mem_cut.1 (u5 r hr); exact ⟨this.1, (h4 r).1 this.2⟩
  · have := u6 r hr
    dsimp only at this
    rw [if_pos ha, mem_cut] at this
    exact ⟨this.1, (h6 ha r).1 this.2⟩

/-- If everything that belongs to a spectrum was kept and meets the conditions, all of it stays. -/
theorem select_whole {s s' : St S} {q : List (Cond S)} {andArgs : Bool} (h : select s (some (.list q)) andArgs true false = .ok s')
    {r b i w e₁ e₂ : Row S} (hr : r ∈ s.sp.kept ∧ MeetsBy andArgs s.codes q s.sp r)
    (hb : b ∈ s.bl.kept ∧ MeetsBy andArgs s.codes q s.bl b) (hi : i ∈ s.inn.kept ∧ MeetsBy andArgs s.codes q s.inn i)
    (hw : w ∈ s.we.kept ∧ MeetsBy andArgs s.codes q s.we w) (he₁ : e₁ ∈ s.eng.kept ∧ MeetsBy andArgs s.codes q s.eng e₁)
    (he₂ : e₂ ∈ s.eng.kept ∧ MeetsBy andArgs s.codes q s.eng e₂) (hp : Parts s r b i w e₁ e₂) :
    r ∈ s'.sp.kept ∧ b ∈ s'.bl.kept ∧ i ∈ s'.inn.kept ∧ w ∈ s'.we.kept ∧ e₁ ∈ s'.eng.kept ∧ e₂ ∈ s'.eng.kept := by
  obtain ⟨pin, pbl, psp, peng, pwe, pac, h1, h2, h3, h4, h5, h6, rfl⟩ := select_eq h
  exact update_whole (mem_cut.2 ⟨hr.1, (h3 _).2 hr.2⟩) (mem_cut.2 ⟨hb.1, (h2 _).2 hb.2⟩) (mem_cut.2 ⟨hi.1, (h1 _).2 hi.2⟩)
    (mem_cut.2 ⟨hw.1, (h5 _).2 hw.2⟩) (mem_cut.2 ⟨he₁.1, (h4 _).2 he₁.2⟩) (mem_cut.2 ⟨he₂.1, (h4 _).2 he₂.2⟩)
    ⟨hp.1, hp.2, hp.3, hp.4, hp.5, hp.6, hp.7, hp.8⟩

omit [LinearOrder S] in
theorem cuts_kept {t t' : Tab S} {P : Row S → Prop} (h : Cuts t t' P) (r : Row S) : r ∈ t'.kept ↔ r ∈ t.kept ∧ P r := by
  classical
  rw [mem_kept, h, mem_kept]
  simp only [List.mem_map, Prod.mk.injEq, Bool.and_eq_true, decide_eq_true_iff]
  constructor
  · rintro ⟨⟨a, b⟩, h1, rfl, h2, h3⟩
    dsimp only at h2 h3
    subst h2
    exact ⟨h1, h3⟩
  · rintro ⟨h1, h2⟩
    exact ⟨(r, true), h1, rfl, rfl, h2⟩

omit [LinearOrder S] in
theorem cuts_eq {t t₁ t₂ : Tab S} {P Q : Row S → Prop} (h₁ : Cuts t t₁ P) (h₂ : Cuts t t₂ Q)
    (h : ∀ r, r ∈ t₁.kept ↔ r ∈ t₂.kept) : t₁.rows = t₂.rows := by
  classical
  rw [h₁, h₂]
  apply List.map_congr_left
  rintro ⟨a, b⟩ hx
  cases b with
  | false => simp
  | true =>
    have hk : a ∈ t.kept := mem_kept.2 hx
    have := h a
    rw [cuts_kept h₁, cuts_kept h₂] at this
    simp only [hk, true_and] at this
    simp only [Bool.true_and, Prod.mk.injEq, true_and]
    rw [Bool.eq_iff_iff, decide_eq_true_iff, decide_eq_true_iff]
    exact this

omit [LinearOrder S] in
theorem cuts_trans {t t₁ t₂ : Tab S} {P Q : Row S → Prop} (h₁ : Cuts t t₁ P) (h₂ : Cuts t₁ t₂ Q) :
    Cuts t t₂ (fun r => P r ∧ Q r) := by
  classical
  unfold Cuts at *
  rw [h₂, h₁, List.map_map]
  apply List.map_congr_left
  rintro ⟨a, b⟩ _
  simp [Bool.and_assoc, Bool.decide_and]

theorem meets_append (codes : Codes S) (q₁ q₂ : List (Cond S)) (t : Tab S) (row : Row S) :
    MeetsBy true codes (q₁ ++ q₂) t row ↔ MeetsBy true codes q₁ t row ∧ MeetsBy true codes q₂ t row := by
  simp only [MeetsBy, if_true, MeetsAll, List.mem_append]
  constructor
  · intro h; exact ⟨fun c hc => h c (Or.inl hc), fun c hc => h c (Or.inr hc)⟩
  · rintro ⟨h1, h2⟩ c (hc | hc)
    · exact h1 c hc
    · exact h2 c hc

theorem meets_has {codes : Codes S} {q : List (Cond S)} {t t' : Tab S} (h : t'.has = t.has) (row : Row S) (a : Bool) :
    MeetsBy a codes q t' row ↔ MeetsBy a codes q t row := by
  unfold MeetsBy MeetsAll MeetsOne
  rw [h]

/-- Two selections after each other keep the same spectra as one with the conditions of both. -/
theorem select_twice {s s₁ s₂ : St S} {q₁ q₂ : List (Cond S)} (hw : Weather s)
    (h₁ : select s (some (.list q₁)) true true false = .ok s₁) (h₂ : select s₁ (some (.list q₂)) true true false = .ok s₂) :
    ∃ s', select s (some (.list (q₁ ++ q₂))) true true false = .ok s' ∧ s'.sp.rows = s₂.sp.rows := by
  have hs := select_same h₁
  have hw₁ := same_weather hs hw
  obtain ⟨s', hs'⟩ := (select_accepts s (q₁ ++ q₂) true true false).2 (by
    obtain ⟨a1, a2⟩ := (select_accepts s q₁ true true false).1 ⟨_, h₁⟩
    obtain ⟨b1, b2⟩ := (select_accepts s₁ q₂ true true false).1 ⟨_, h₂⟩
    refine ⟨by simp [a1], ?_⟩
    intro c hc
    rcases List.mem_append.1 hc with hc | hc
    · exact a2 c hc
    · have := b2 c hc
      unfold Testable at this ⊢
      rw [hs.inn, hs.bl, hs.sp, hs.eng, hs.we, hs.ac, hs.auto] at this
      exact this)
  refine ⟨s', hs', ?_⟩
  have c₁ := select_sp hw h₁
  have c₂ := select_sp hw₁ h₂
  have c' := select_sp hw hs'
  refine cuts_eq c' (cuts_trans c₁ c₂) ?_
  have k' := cuts_kept c'
  have k₂ := cuts_kept c₂
  obtain ⟨u1, u2, u3, u4, u5, _⟩ := select_sub h₁
  intro r
  rw [k', k₂, whole_iff, whole_iff]
  simp only [hs.codes, meets_has hs.inn, meets_has hs.bl, meets_has hs.sp, meets_has hs.eng, meets_has hs.we]
  constructor
  · rintro ⟨hr, hm, b, i, w, e₁, e₂, hb, hi, hwe, he₁, he₂, hp⟩
    simp only [meets_append] at hm hb hi hwe he₁ he₂
    obtain ⟨g1, g2, g3, g4, g5, g6⟩ := select_whole h₁ ⟨hr, hm.1⟩ ⟨hb.1, hb.2.1⟩ ⟨hi.1, hi.2.1⟩ ⟨hwe.1, hwe.2.1⟩
      ⟨he₁.1, he₁.2.1⟩ ⟨he₂.1, he₂.2.1⟩ hp
    refine ⟨g1, hm.2, b, i, w, e₁, e₂, ⟨g2, hb.2.2⟩, ⟨g3, hi.2.2⟩, ⟨g4, hwe.2.2⟩, ⟨g5, he₁.2.2⟩, ⟨g6, he₂.2.2⟩, ?_⟩
    exact ⟨hp.1, hp.2, hp.3, hp.4, hp.5, hp.6, hp.7, by rw [hs.cross, hs.ints]; exact hp.8⟩
  · rintro ⟨hr, hm, b, i, w, e₁, e₂, hb, hi, hwe, he₁, he₂, hp⟩
    simp only [meets_append]
    refine ⟨(u1 r hr).1, ⟨(u1 r hr).2, hm⟩, b, i, w, e₁, e₂, ⟨(u2 b hb.1).1, (u2 b hb.1).2, hb.2⟩,
      ⟨(u3 i hi.1).1, (u3 i hi.1).2, hi.2⟩, ⟨(u4 w hwe.1).1, (u4 w hwe.1).2, hwe.2⟩, ⟨(u5 _ he₁.1).1, (u5 _ he₁.1).2, he₁.2⟩,
      ⟨(u5 _ he₂.1).1, (u5 _ he₂.1).2, he₂.2⟩, ?_⟩
    exact ⟨hp.1, hp.2, hp.3, hp.4, hp.5, hp.6, hp.7, by rw [← hs.cross, ← hs.ints]; exact hp.8⟩

/-- The table with all rows set. -/
def Tab.fresh (t : Tab S) : Tab S := { t with rows := t.rows.map (fun x => (x.1, true)) }

/-- The tables as they were before any selection. -/
def fresh (s : St S) : St S := { s with
  inn := s.inn.fresh, bl := s.bl.fresh, sp := s.sp.fresh, eng := s.eng.fresh
  we := s.we.fresh, ac := if s.auto then s.ac.fresh else s.ac }

omit [LinearOrder S] in
theorem fresh_mask (t : Tab S) (p : Row S → Bool) (m : Bool) : t.setMask p true m = t.fresh.setMask p false true := by
  rw [setMask_and]
  unfold Tab.setMask Tab.cut Tab.fresh
  rw [if_pos (by simp)]
  simp [List.map_map, Function.comp_def]

/-- With `reset`, earlier selections do not matter. -/
theorem select_reset (s : St S) (w : Option (Where S)) (andArgs andMask : Bool) :
    select s w andArgs andMask true = select (fresh s) w andArgs true false := by
  have hg : ∀ (t : Tab S) q, genMask t.fresh andArgs q = genMask t andArgs q := by
    intro t q
    have hq : ∀ l, query t.fresh andArgs l = query t andArgs l := by
      intro l
      induction l with
      | nil => rfl
      | cons i l ih =>
        cases i with
        | nested n => simp only [query]; exact ih
        | cond c => simp only [query, ih]; rfl
    cases q with
    | none => rfl
    | some l => cases l with
      | nil => rfl
      | cons i l => simp only [genMask, hq]
  unfold select
  simp only [fresh, fresh_mask, hg]
  by_cases ha : s.auto = true
  · simp only [ha, if_true, hg]
  · simp only [ha, if_false, Bool.false_eq_true]

/-! ## Conditions that do nothing -/

/-- The name is neither that of a field of some table nor that of a code. -/
def Unknown (s : St S) (n : Name) : Prop := codeField (longName n) = none ∧ s.inn.has (longName n) = false ∧
  s.bl.has (longName n) = false ∧ s.sp.has (longName n) = false ∧ s.eng.has (longName n) = false ∧ s.we.has (longName n) = false ∧
  s.ac.has (longName n) = false

omit [LinearOrder S] in
theorem substAll_append (codes : Codes S) : ∀ l m : List (Item S), substAll codes (l ++ m) =
    match substAll codes l with
    | .error e => .error e
    | .ok l' => match substAll codes m with
      | .error e => .error e
      | .ok m' => .ok (l' ++ m')
  | [], m => by
    simp only [List.nil_append, substAll]
    cases substAll codes m <;> rfl
  | i :: l, m => by
    simp only [List.cons_append, substAll]
    rw [substAll_append codes l m]
    cases substItem codes i with
    | error e => rfl
    | ok i' =>
      cases substAll codes l with
      | error e => rfl
      | ok l' => cases substAll codes m <;> rfl

theorem query_skip {t : Tab S} {a : Bool} {c : Cond S} (h : t.has c.field = false) (m : List (Item S)) :
    ∀ l : List (Item S), query t a (l ++ .cond c :: m) = query t a (l ++ m)
  | [] => by simp [query, h]
  | .nested n :: l => by simp only [List.cons_append, query]; exact query_skip h m l
  | .cond c' :: l => by simp only [List.cons_append, query, query_skip h m l]

theorem genMask_skip {t : Tab S} {a : Bool} {c : Cond S} (h : t.has c.field = false) (l m : List (Item S)) (hne : l ++ m ≠ []) :
    genMask t a (some (l ++ .cond c :: m)) = genMask t a (some (l ++ m)) := by
  have hany : (l ++ .cond c :: m).any wrongLength = (l ++ m).any wrongLength := by
    simp [List.any_append, wrongLength]
  have hq := query_skip (a := a) h m l
  obtain ⟨x, k, hk⟩ := List.exists_cons_of_ne_nil hne
  obtain ⟨y, k', hk'⟩ := List.exists_cons_of_ne_nil (show l ++ .cond c :: m ≠ [] by simp)
  rw [hk, hk'] at hany hq ⊢
  simp only [genMask]
  rw [hany, hq]

/-- A condition on a name that is unknown is passed over without an error. -/
theorem unknown_counterexample {s : St S} {c : Cond S} (hu : Unknown s c.field) (q₁ q₂ : List (Cond S)) (hne : q₁ ++ q₂ ≠ [])
    (andArgs andMask reset : Bool) : select s (some (.list (q₁ ++ c :: q₂))) andArgs andMask reset =
      select s (some (.list (q₁ ++ q₂))) andArgs andMask reset := by
  obtain ⟨u0, u1, u2, u3, u4, u5, u6⟩ := hu
  have hsub : subst s.codes c = .ok { c with field := longName c.field } := by
    simp only [subst, u0]
  have hlist : ∀ l m : List (Item S), substAll s.codes (l ++ .cond c :: m) = match substAll s.codes l with
      | .error e => .error e
      | .ok l' => match substAll s.codes m with
        | .error e => .error e
        | .ok m' => .ok (l' ++ .cond { c with field := longName c.field } :: m') := by
    intro l m
    rw [substAll_append]
    simp only [substAll, substItem, hsub]
    cases substAll s.codes l with
    | error e => rfl
    | ok l' => cases substAll s.codes m <;> rfl
  unfold select
  simp only [items, List.map_append, List.map_cons]
  rw [hlist, substAll_append]
  cases h1 : substAll s.codes (q₁.map .cond) with
  | error e => rfl
  | ok l =>
    cases h2 : substAll s.codes (q₂.map .cond) with
    | error e => rfl
    | ok m =>
      dsimp only
      have hnil : l ++ m ≠ [] := by
        obtain ⟨q', rfl, f1⟩ := substAll_conds h1
        obtain ⟨q'', rfl, f2⟩ := substAll_conds h2
        intro h
        apply hne
        rw [List.append_eq_nil_iff] at h ⊢
        have e1 := f1.length_eq
        have e2 := f2.length_eq
        have l1 := congrArg List.length h.1
        have l2 := congrArg List.length h.2
        simp only [List.length_map, List.length_nil] at l1 l2
        exact ⟨List.eq_nil_of_length_eq_zero (by omega), List.eq_nil_of_length_eq_zero (by omega)⟩
      have g : ∀ t : Tab S, t.has (longName c.field) = false →
          genMask t andArgs (some (l ++ .cond { c with field := longName c.field } :: m)) = genMask t andArgs (some (l ++ m)) :=
        fun t ht => genMask_skip (c := { c with field := longName c.field }) ht l m hnil
      rw [g _ u1, g _ u2, g _ u3, g _ u4, g _ u5, g _ u6]

omit [LinearOrder S] in
theorem setMask_true (t : Tab S) : t.setMask (fun _ => true) false true = t := by
  rw [setMask_and]
  simp [Tab.cut]

/-- So a selection by an unknown name alone keeps all records (that belong together). -/
theorem unknown_alone_counterexample {s : St S} {c : Cond S} (hu : Unknown s c.field) (andArgs : Bool) :
    select s (some (.list [c])) andArgs true false = .ok (updateFilter s) := by
  obtain ⟨u0, u1, u2, u3, u4, u5, u6⟩ := hu
  have hsub : subst s.codes c = .ok { c with field := longName c.field } := by
    simp only [subst, u0]
  have g : ∀ t : Tab S, t.has (longName c.field) = false →
      genMask t andArgs (some [.cond { c with field := longName c.field }]) = .ok (fun _ => true) := by
    intro t ht
    simp [genMask, wrongLength, query, ht]
  unfold select
  simp only [items, List.map_cons, List.map_nil, substAll, substItem, hsub, g _ u1, g _ u2, g _ u3, g _ u4, g _ u5, g _ u6,
    setMask_true, ite_self]

/-- The documented tuple of two conditions is an error; a tuple of three conditions keeps all records. -/
theorem tuple_counterexample (s : St S) (l : List (Cond S)) (andArgs : Bool) :
    (l.length ≠ 3 → select s (some (.tuple l)) andArgs true false = .error .value) ∧
    (l.length = 3 → select s (some (.tuple l)) andArgs true false = .ok (updateFilter s)) := by
  constructor
  · intro h
    unfold select
    simp [items, substAll, substItem, genMask, wrongLength, h]
  · intro h
    have g : ∀ t : Tab S, genMask t andArgs (some [.nested 3]) = .ok (fun _ => true) := by
      intro t
      simp [genMask, wrongLength, query]
    unfold select
    simp only [items, substAll, substItem, h, g, setMask_true, ite_self]

/-! ## The keywords of `read_mir` -/

omit [LinearOrder S] in
theorem whereList_parts (one : S) (r : MirReq S) (hs : r.selectWhere = none) : whereList one r =
    (ask .ant .eq r.antennaNums ++ ask .tel1 .eq r.antennaNames ++ ask .tel2 .eq r.antennaNames) ++ (ask .blcd .eq r.bls ++
      (ask .mjd .between r.timeRange ++ (ask .lstRange .between r.lstRange ++ (ask .pol .eq r.polarizations ++
      ask .source .eq r.catalogNames ++ ask .recv .eq r.receivers ++ ask .sb .eq r.sidebands ++
      chunkConds r ++
      (if r.swarmOnly then [⟨.correlator, .eq, [one], []⟩] else []))))) := by
  simp only [whereList, hs, List.append_assoc]

/-- Baselines and ranges of sidereal times given to `read_mir` do nothing, since no table has fields of the names that it uses. -/
theorem mir_ignored_counterexample (s : St S) (one : S) (r : MirReq S) (hb : Unknown s .blcd) (hl : Unknown s .lstRange)
    (hsw : r.swarmOnly = true) (hs : r.selectWhere = none) :
    readMir s one r = readMir s one { r with bls := none, lstRange := none } := by
  have key : ∀ (n : Name) (cp : Comp) (o : Option (Val S)) (q₁ q₂ : List (Cond S)), Unknown s n → q₂ ≠ [] →
      select s (some (.list (q₁ ++ (ask n cp o ++ q₂)))) true true false = select s (some (.list (q₁ ++ q₂))) true true false := by
    intro n cp o q₁ q₂ hu hne
    cases o with
    | none => rfl
    | some v => exact unknown_counterexample (c := ⟨n, cp, v.vals, v.texts⟩) hu q₁ q₂ (by simp [hne]) true true false
  have hform : ∀ r' : MirReq S, whereList one r' ≠ [] →
      readMir s one r' = select s (some (.list (whereList one r'))) true true false := by
    intro r' hq
    unfold readMir
    obtain ⟨c, q', hc⟩ := List.exists_cons_of_ne_nil hq
    rw [hc]
  rw [hform _ (by rw [whereList_parts one r hs]; simp [hsw]),
    hform _ (by rw [whereList_parts one { r with bls := none, lstRange := none } hs]; simp [hsw])]
  rw [whereList_parts one r hs, whereList_parts one { r with bls := none, lstRange := none } hs]
  simp only [hsw, if_true]
  rw [key .blcd .eq r.bls _ _ hb (by simp)]
  have := key .lstRange .between r.lstRange ((ask .ant .eq r.antennaNums ++ ask .tel1 .eq r.antennaNames ++
    ask .tel2 .eq r.antennaNames) ++ ask .mjd .between r.timeRange) (ask .pol .eq r.polarizations ++
      ask .source .eq r.catalogNames ++ ask .recv .eq r.receivers ++ ask .sb .eq r.sidebands ++
      chunkConds r ++
      [⟨.correlator, .eq, [one], []⟩]) hl (by simp)
  simp only [List.append_assoc] at this ⊢
  rw [this]
  rfl

/-- Every spectrum that is read has both its antennas among those asked for. -/
theorem mir_antennas {s s' : St S} {one : S} {r : MirReq S} (hw : Weather s) (hs : r.selectWhere = none) {v : Val S}
    (hv : r.antennaNums = some v) (hant : s.eng.has .antenna = true) (h : readMir s one r = .ok s') {x : Row S}
    (hx : x ∈ s'.sp.kept) :
    ∃ b ∈ s'.bl.kept, b .blhid = x .blhid ∧ (∃ a ∈ b .iant1, a ∈ v.vals) ∧ (∃ a ∈ b .iant2, a ∈ v.vals) := by
  have hmem : (⟨.ant, .eq, v.vals, v.texts⟩ : Cond S) ∈ whereList one r := by
    rw [whereList_parts one r hs, hv]
    simp [ask]
  have hsel : select s (some (.list (whereList one r))) true true false = .ok s' := by
    unfold readMir at h
    cases hl : whereList one r with
    | nil => rw [hl] at hmem; cases hmem
    | cons c q => rw [hl] at h; exact h
  obtain ⟨b, i, w, e₁, e₂, hb, hi, hwe, he₁, he₂, hp⟩ := whole_iff.1 (select_closed hw hsel hx)
  obtain ⟨_, _, _, _, u5, _⟩ := select_sub hsel
  have m : ∀ e ∈ s'.eng.kept, ∃ a ∈ e .antenna, a ∈ v.vals := by
    intro e he
    have := (u5 e he).2
    simp only [MeetsBy, if_true] at this
    have := this _ hmem (by show s.eng.has .antenna = true; exact hant)
    exact this
  refine ⟨b, hb, hp.blhid, ?_, ?_⟩
  · rw [← hp.ant₁]; exact m _ he₁
  · rw [← hp.ant₂]; exact m _ he₂

end Verif.MirSel
