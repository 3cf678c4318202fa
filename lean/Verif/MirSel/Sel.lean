import Verif.MirSel.Props

/-! # What `select` keeps -/

namespace Verif.MirSel
open Verif.Pol (Str)

variable {S : Type} [LinearOrder S]

theorem holds_iff (c : Comp) (vals : List S) (x : S) : holds c vals x = true ↔ Compares c vals x := by
  unfold holds Compares
  cases c <;> match vals with
    | [] => simp
    | [a] => simp
    | a :: b :: l => simp

omit [LinearOrder S] in
theorem compErr_iff (c : Comp) (vals : List S) : compErr c vals = none ↔ Proper c vals := by
  unfold compErr Proper
  cases c <;> match vals with
    | [] => simp
    | [a] => simp
    | a :: b :: l => simp

theorem subst_spec {codes : Codes S} {c c' : Cond S} (h : subst codes c = .ok c') :
    c'.field = fieldOf c.field ∧ (∀ row, test c' row = true ↔ Meets codes c row) ∧
      (compErr c'.comp c'.vals = none ↔ (codeField (longName c.field) = none → Proper c.comp c.vals)) := by
  unfold subst at h
  dsimp only at h
  unfold fieldOf Meets fieldOf
  cases hf : codeField (longName c.field) with
  | none =>
    rw [hf] at h
    dsimp only at h
    cases h
    refine ⟨rfl, ?_, ?_⟩
    · intro row
      simp only [test, List.any_eq_true, holds_iff, Option.getD_none]
    · simp only [forall_const]
      exact compErr_iff _ _
  | some f =>
    rw [hf] at h
    dsimp only at h
    have hcode : ∀ neg x, x ∈ codeVals codes (longName c.field) neg c.texts ↔
        ∃ txt, (longName c.field, txt, x) ∈ codes ∧ (if neg then txt ∉ c.texts else txt ∈ c.texts) := by
      intro neg x
      unfold codeVals
      simp only [List.mem_map, List.mem_filter, Bool.and_eq_true, decide_eq_true_eq]
      constructor
      · rintro ⟨⟨n, txt, y⟩, ⟨h1, rfl, h3⟩, rfl⟩
        refine ⟨txt, h1, ?_⟩
        cases neg <;> simpa using h3
      · rintro ⟨txt, h1, h2⟩
        refine ⟨(longName c.field, txt, x), ⟨h1, rfl, ?_⟩, rfl⟩
        cases neg <;> simpa using h2
    cases hc : c.comp <;> rw [hc] at h <;> dsimp only at h <;> cases h
    · refine ⟨rfl, ?_, by simp [compErr]⟩
      intro row
      simp only [test, List.any_eq_true, holds, decide_eq_true_eq, Option.getD_some, hcode]
      simp
    · refine ⟨rfl, ?_, by simp [compErr]⟩
      intro row
      simp only [test, List.any_eq_true, holds, decide_eq_true_eq, Option.getD_some, hcode]
      simp

omit [LinearOrder S] in
theorem subst_ok_iff {codes : Codes S} {c : Cond S} : (∃ c', subst codes c = .ok c') ↔
    (codeField (longName c.field) ≠ none → c.comp = .eq ∨ c.comp = .ne) := by
  unfold subst
  dsimp only
  cases hf : codeField (longName c.field) with
  | none => simp
  | some f => cases hc : c.comp <;> simp

omit [LinearOrder S] in
theorem substAll_conds {codes : Codes S} : ∀ {q : List (Cond S)} {l : List (Item S)}, substAll codes (q.map .cond) = .ok l →
    ∃ q' : List (Cond S), l = q'.map .cond ∧ List.Forall₂ (fun c c' => subst codes c = .ok c') q q'
  | [], l, h => by
    simp only [List.map_nil, substAll] at h
    cases h
    exact ⟨[], rfl, .nil⟩
  | c :: q, l, h => by
    simp only [List.map_cons, substAll, substItem] at h
    cases hs : subst codes c with
    | error e => rw [hs] at h; cases h
    | ok c' =>
      rw [hs] at h
      dsimp only at h
      cases hr : substAll codes (q.map .cond) with
      | error e => rw [hr] at h; cases h
      | ok l' =>
        rw [hr] at h
        dsimp only at h
        cases h
        obtain ⟨q', rfl, hf⟩ := substAll_conds hr
        exact ⟨c' :: q', rfl, .cons hs hf⟩

omit [LinearOrder S] in
theorem substAll_ok {codes : Codes S} : ∀ {q q' : List (Cond S)}, List.Forall₂ (fun c c' => subst codes c = .ok c') q q' →
    substAll codes (q.map .cond) = .ok (q'.map .cond)
  | _, _, .nil => rfl
  | _, _, .cons h1 h2 => by simp [substAll, substItem, h1, substAll_ok h2]

theorem query_spec {t : Tab S} {andArgs : Bool} : ∀ {q : List (Cond S)} {o : Option (Row S → Bool)},
    query t andArgs (q.map .cond) = .ok o →
    match o with
    | none => ∀ c ∈ q, t.has c.field = false
    | some p => (∃ c ∈ q, t.has c.field = true) ∧ ∀ row, p row = true ↔
        if andArgs then ∀ c ∈ q, t.has c.field = true → test c row = true
        else ∃ c ∈ q, t.has c.field = true ∧ test c row = true
  | [], o, h => by
    simp only [List.map_nil, query] at h
    cases h
    simp
  | c :: q, o, h => by
    simp only [List.map_cons, query] at h
    by_cases hh : t.has c.field = true
    · rw [if_pos hh] at h
      cases he : compErr c.comp c.vals with
      | some e => rw [he] at h; cases h
      | none =>
        rw [he] at h
        dsimp only at h
        cases hq : query t andArgs (q.map .cond) with
        | error e => rw [hq] at h; cases h
        | ok o' =>
          have ih := query_spec hq
          rw [hq] at h
          cases o' with
          | none =>
            dsimp only at h ih
            cases h
            refine ⟨⟨c, List.mem_cons_self, hh⟩, ?_⟩
            intro row
            cases andArgs
            · simp only [Bool.false_eq_true, if_false, List.mem_cons]
              constructor
              · intro ht; exact ⟨c, Or.inl rfl, hh, ht⟩
              · rintro ⟨c', rfl | hc', h1, h2⟩
                · exact h2
                · rw [ih c' hc'] at h1; cases h1
            · simp only [if_true, List.mem_cons, forall_eq_or_imp]
              constructor
              · intro ht
                exact ⟨fun _ => ht, fun c' hc' h1 => by rw [ih c' hc'] at h1; cases h1⟩
              · intro ht; exact ht.1 hh
          | some p =>
            dsimp only at h ih
            cases h
            refine ⟨⟨c, List.mem_cons_self, hh⟩, ?_⟩
            intro row
            have ihr := ih.2 row
            cases andArgs
            · simp only [Bool.false_eq_true, if_false, Bool.or_eq_true, List.mem_cons] at ihr ⊢
              rw [ihr]
              constructor
              · rintro (ht | ⟨c', hc', h1⟩)
                · exact ⟨c, Or.inl rfl, hh, ht⟩
                · exact ⟨c', Or.inr hc', h1⟩
              · rintro ⟨c', rfl | hc', h1⟩
                · exact Or.inl h1.2
                · exact Or.inr ⟨c', hc', h1⟩
            · simp only [if_true, Bool.and_eq_true, List.mem_cons, forall_eq_or_imp] at ihr ⊢
              rw [ihr]
              constructor
              · rintro ⟨h1, h2⟩; exact ⟨fun _ => h1, h2⟩
              · rintro ⟨h1, h2⟩; exact ⟨h1 hh, h2⟩
    · rw [if_neg hh] at h
      have ih := query_spec h
      have hf : t.has c.field = false := by simpa using hh
      cases o with
      | none =>
        dsimp only at ih ⊢
        intro c' hc'
        rcases List.mem_cons.1 hc' with rfl | hc'
        · exact hf
        · exact ih c' hc'
      | some p =>
        dsimp only at ih ⊢
        obtain ⟨⟨c₀, hc₀, h₀⟩, ih⟩ := ih
        refine ⟨⟨c₀, List.mem_cons_of_mem _ hc₀, h₀⟩, ?_⟩
        intro row
        rw [ih row]
        cases andArgs
        · simp [hf]
        · simp [hf]

theorem query_ok_iff {t : Tab S} {andArgs : Bool} : ∀ {q : List (Cond S)},
    (∃ o, query t andArgs (q.map .cond) = .ok o) ↔ ∀ c ∈ q, t.has c.field = true → compErr c.comp c.vals = none
  | [] => by simp [query]
  | c :: q => by
    have ih := query_ok_iff (t := t) (andArgs := andArgs) (q := q)
    simp only [List.map_cons, query, List.mem_cons, forall_eq_or_imp]
    rw [← ih]
    by_cases hh : t.has c.field = true
    · rw [if_pos hh]
      cases he : compErr c.comp c.vals with
      | some e => simp [hh]
      | none =>
        dsimp only
        cases hq : query t andArgs (q.map .cond) with
        | error e => simp
        | ok o => cases o <;> simp
    · rw [if_neg hh]
      simp [hh]

omit [LinearOrder S] in
theorem no_nested (q : List (Cond S)) :
    (q.map Item.cond).any wrongLength = false := by
  rw [List.any_eq_false]
  intro x hx
  obtain ⟨c, _, rfl⟩ := List.mem_map.1 hx
  simp [wrongLength]

theorem genMask_eq {t : Tab S} {andArgs : Bool} {q : List (Cond S)} (hq : q ≠ []) :
    genMask t andArgs (some (q.map .cond)) = match query t andArgs (q.map .cond) with
      | .error e => .error e
      | .ok none => .ok (fun _ => true)
      | .ok (some p) => .ok p := by
  obtain ⟨c, q, rfl⟩ := List.exists_cons_of_ne_nil hq
  have := no_nested (c :: q)
  unfold genMask
  simp only [List.map_cons] at this ⊢
  rw [this, if_neg (by decide)]
  cases query t andArgs (.cond c :: q.map .cond) with
  | error e => rfl
  | ok o => cases o <;> rfl

theorem genMask_spec {codes : Codes S} {t : Tab S} {andArgs : Bool} {q q' : List (Cond S)}
    (hs : List.Forall₂ (fun c c' => subst codes c = .ok c') q q') {p : Row S → Bool}
    (h : genMask t andArgs (some (q'.map .cond)) = .ok p) (row : Row S) : p row = true ↔ MeetsBy andArgs codes q t row := by
  have hall : (∀ c' ∈ q', t.has c'.field = true → test c' row = true) ↔ MeetsAll codes q t row := by
    clear h
    unfold MeetsAll
    induction hs with
    | nil => simp
    | cons h1 _ ih =>
      obtain ⟨e1, e2, _⟩ := subst_spec h1
      simp only [List.mem_cons, forall_eq_or_imp, ih, e1, e2]
  have hany : ∀ P : Cond S → Prop, ∀ P' : Cond S → Prop, (∀ c c', subst codes c = .ok c' → (P c ↔ P' c')) →
      ((∃ c' ∈ q', P' c') ↔ ∃ c ∈ q, P c) := by
    intro P P' hP
    clear h hall
    induction hs with
    | nil => simp
    | cons h1 _ ih => simp only [List.mem_cons, exists_eq_or_imp, ih, hP _ _ h1]
  by_cases hq : q' = []
  · subst hq
    simp [genMask] at h
  · rw [genMask_eq hq] at h
    have hhas := hany (fun c => t.has (fieldOf c.field) = true) (fun c => t.has c.field = true)
      (fun c c' h => by rw [(subst_spec h).1])
    cases hqu : query t andArgs (q'.map .cond) with
    | error e => rw [hqu] at h; cases h
    | ok o =>
      have hsp := query_spec hqu
      rw [hqu] at h
      cases o with
      | none =>
        dsimp only at h hsp
        cases h
        have hno : ¬ ∃ c ∈ q, t.has (fieldOf c.field) = true := by
          rw [← hhas]
          rintro ⟨c, hc, hh⟩
          rw [hsp c hc] at hh; cases hh
        simp only [true_iff]
        unfold MeetsBy
        cases andArgs
        · intro h; exact absurd h hno
        · intro c hc hh; exact absurd ⟨c, hc, hh⟩ hno
      | some p' =>
        dsimp only at h hsp
        cases h
        rw [hsp.2 row]
        unfold MeetsBy
        cases andArgs
        · simp only [Bool.false_eq_true, if_false]
          unfold MeetsOne
          rw [hany (fun c => t.has (fieldOf c.field) = true ∧ Meets codes c row) (fun c => t.has c.field = true ∧ test c row = true)
            (fun c c' h => by rw [(subst_spec h).1, (subst_spec h).2.1])]
          constructor
          · intro h _; exact h
          · intro h; exact h (hhas.1 hsp.1)
        · simp only [if_true]
          exact hall

/-- What `select` does with a list of conditions: the masks are cut and then updated. -/
theorem select_eq {s s' : St S} {q : List (Cond S)} {andArgs : Bool} (h : select s (some (.list q)) andArgs true false = .ok s') :
    ∃ pin pbl psp peng pwe pac : Row S → Bool,
      (∀ row, pin row = true ↔ MeetsBy andArgs s.codes q s.inn row) ∧ (∀ row, pbl row = true ↔ MeetsBy andArgs s.codes q s.bl row) ∧
      (∀ row, psp row = true ↔ MeetsBy andArgs s.codes q s.sp row) ∧ (∀ row, peng row = true ↔ MeetsBy andArgs s.codes q s.eng row) ∧
      (∀ row, pwe row = true ↔ MeetsBy andArgs s.codes q s.we row) ∧
      (s.auto = true → ∀ row, pac row = true ↔ MeetsBy andArgs s.codes q s.ac row) ∧
      s' = updateFilter { s with
        inn := s.inn.cut pin, bl := s.bl.cut pbl, sp := s.sp.cut psp, eng := s.eng.cut peng
        we := s.we.cut pwe, ac := if s.auto then s.ac.cut pac else s.ac } := by
  unfold select at h
  simp only [items] at h
  cases hs : substAll s.codes (q.map .cond) with
  | error e => rw [hs] at h; cases h
  | ok l =>
    rw [hs] at h
    obtain ⟨q', rfl, hf⟩ := substAll_conds hs
    dsimp only at h
    cases h1 : genMask s.inn andArgs (some (q'.map .cond)) with
    | error e => rw [h1] at h; cases h
    | ok pin =>
    rw [h1] at h
    dsimp only at h
    cases h2 : genMask s.bl andArgs (some (q'.map .cond)) with
    | error e => rw [h2] at h; cases h
    | ok pbl =>
    rw [h2] at h
    dsimp only at h
    cases h3 : genMask s.sp andArgs (some (q'.map .cond)) with
    | error e => rw [h3] at h; cases h
    | ok psp =>
    rw [h3] at h
    dsimp only at h
    cases h4 : genMask s.eng andArgs (some (q'.map .cond)) with
    | error e => rw [h4] at h; cases h
    | ok peng =>
    rw [h4] at h
    dsimp only at h
    cases h5 : genMask s.we andArgs (some (q'.map .cond)) with
    | error e => rw [h5] at h; cases h
    | ok pwe =>
    rw [h5] at h
    dsimp only at h
    cases h6 : (if s.auto = true then genMask s.ac andArgs (some (q'.map .cond)) else .ok (fun _ => true)) with
    | error e => rw [h6] at h; cases h
    | ok pac =>
    rw [h6] at h
    dsimp only at h
    refine ⟨pin, pbl, psp, peng, pwe, pac, genMask_spec hf h1, genMask_spec hf h2, genMask_spec hf h3, genMask_spec hf h4,
      genMask_spec hf h5, ?_, ?_⟩
    · intro ha
      rw [if_pos ha] at h6
      exact genMask_spec hf h6
    · simp only [setMask_and] at h
      cases h
      rfl

omit [LinearOrder S] in
theorem whole_iff {s : St S} {bl inn we eng : Row S → Prop} {r : Row S} : Whole s bl inn we eng r ↔
    ∃ b i w e₁ e₂, bl b ∧ inn i ∧ we w ∧ eng e₁ ∧ eng e₂ ∧ Parts s r b i w e₁ e₂ := by
  unfold Whole
  constructor
  · rintro ⟨b, i, w, e₁, e₂, h1, h2, h3, h4, h5, h6, h7, h8, h9, h10, h11, h12, h13⟩
    exact ⟨b, i, w, e₁, e₂, h1, h2, h3, h4, h5, ⟨h6, h7, h8, h9, h10, h11, h12, h13⟩⟩
  · rintro ⟨b, i, w, e₁, e₂, h1, h2, h3, h4, h5, ⟨h6, h7, h8, h9, h10, h11, h12, h13⟩⟩
    exact ⟨b, i, w, e₁, e₂, h1, h2, h3, h4, h5, h6, h7, h8, h9, h10, h11, h12, h13⟩

omit [LinearOrder S] in
theorem weather_cut {s : St S} (h : Weather s) (bl sp eng ac : Tab S) (pin pwe : Row S → Bool) :
    Weather { s with inn := s.inn.cut pin, bl := bl, sp := sp, eng := eng, we := s.we.cut pwe, ac := ac } := by
  intro x hx
  obtain ⟨y, hy, rfl⟩ := List.mem_map.1 hx
  obtain ⟨z, hz, he⟩ := h y hy
  exact ⟨(z.1, z.2 && pwe z.1), List.mem_map.2 ⟨z, hz, rfl⟩, he⟩

theorem update_iff {s : St S} (hw : Weather s) (r : Row S) : r ∈ (updateFilter s).sp.kept ↔ r ∈ s.sp.kept ∧
    Whole s (· ∈ s.bl.kept) (· ∈ s.inn.kept) (· ∈ s.we.kept) (· ∈ s.eng.kept) r := by
  rw [whole_iff]
  obtain ⟨s1, s2, s3, s4, s5, _⟩ := update_sub s
  constructor
  · intro h
    obtain ⟨b, i, w, e₁, e₂, h1, h2, h3, h4, h5, h6⟩ := update_closed hw h
    exact ⟨s1 r h, b, i, w, e₁, e₂, s2 b h1, s3 i h2, s4 w h3, s5 _ h4, s5 _ h5, h6⟩
  · rintro ⟨hr, b, i, w, e₁, e₂, h1, h2, h3, h4, h5, h6⟩
    exact (update_whole hr h1 h2 h3 h4 h5 h6).1

omit [LinearOrder S] in
theorem cuts_of {t t' : Tab S} {p : Row S → Bool} (ht : t' = t.cut p) {P : Row S → Prop}
    (h : ∀ r, r ∈ t'.kept ↔ r ∈ t.kept ∧ P r) : Cuts t t' P := by
  classical
  subst ht
  unfold Cuts Tab.cut
  apply List.map_congr_left
  rintro ⟨a, b⟩ hx
  cases b with
  | false => simp
  | true =>
    have hk : a ∈ t.kept := mem_kept.2 hx
    have := h a
    rw [mem_cut] at this
    simp only [hk, true_and] at this
    simp only [Bool.true_and, Prod.mk.injEq, true_and]
    rw [Bool.eq_iff_iff, this, decide_eq_true_iff]

omit [LinearOrder S] in
theorem cut_cut (t : Tab S) (p p' : Row S → Bool) : (t.cut p).cut p' = t.cut (fun r => p r && p' r) := by
  unfold Tab.cut
  simp [List.map_map, Function.comp_def, Bool.and_assoc]

/-- Exactly those spectra stay that meet the conditions, and whose baseline, integration, weather and both antennas do, as far as they
were kept before. -/
theorem select_sp {s s' : St S} {q : List (Cond S)} {andArgs : Bool} (hw : Weather s)
    (h : select s (some (.list q)) andArgs true false = .ok s') :
    Cuts s.sp s'.sp (fun r => MeetsBy andArgs s.codes q s.sp r ∧
      Whole s (fun b => b ∈ s.bl.kept ∧ MeetsBy andArgs s.codes q s.bl b) (fun i => i ∈ s.inn.kept ∧ MeetsBy andArgs s.codes q s.inn i)
        (fun w => w ∈ s.we.kept ∧ MeetsBy andArgs s.codes q s.we w) (fun e => e ∈ s.eng.kept ∧ MeetsBy andArgs s.codes q s.eng e) r) := by
  obtain ⟨pin, pbl, psp, peng, pwe, pac, h1, h2, h3, h4, h5, _, rfl⟩ := select_eq h
  obtain ⟨p, hp⟩ := update_sp { s with
    inn := s.inn.cut pin, bl := s.bl.cut pbl, sp := s.sp.cut psp, eng := s.eng.cut peng
    we := s.we.cut pwe, ac := if s.auto then s.ac.cut pac else s.ac }
  refine cuts_of (p := fun r => psp r && p r) ?_ ?_
  · rw [hp]
    exact cut_cut _ _ _
  · intro r
    rw [update_iff (weather_cut hw _ _ _ _ pin pwe)]
    unfold Whole
    simp only [mem_cut, h1, h2, h3, h4, h5]
    rw [and_assoc]

/-- What belongs to a spectrum that stays, stays. -/
theorem select_closed {s s' : St S} {q : List (Cond S)} {andArgs : Bool} (hw : Weather s)
    (h : select s (some (.list q)) andArgs true false = .ok s') {r : Row S} (hr : r ∈ s'.sp.kept) :
    Whole s' (· ∈ s'.bl.kept) (· ∈ s'.inn.kept) (· ∈ s'.we.kept) (· ∈ s'.eng.kept) r := by
  obtain ⟨pin, pbl, psp, peng, pwe, pac, h1, h2, h3, h4, h5, _, rfl⟩ := select_eq h
  obtain ⟨b, i, w, e₁, e₂, g1, g2, g3, g4, g5, g6⟩ := update_closed (weather_cut hw _ _ _ _ pin pwe) hr
  exact whole_iff.2 ⟨b, i, w, e₁, e₂, g1, g2, g3, g4, g5, ⟨g6.1, g6.2, g6.3, g6.4, g6.5, g6.6, g6.7, g6.8⟩⟩

/-- A selection is made exactly if there is a condition and all of them can be tested; otherwise it is an error. -/
theorem select_accepts (s : St S) (q : List (Cond S)) (andArgs andMask reset : Bool) :
    (∃ s', select s (some (.list q)) andArgs andMask reset = .ok s') ↔ q ≠ [] ∧ ∀ c ∈ q, Testable s c := by
  have hgen : ∀ (q' : List (Cond S)) (t : Tab S), q' ≠ [] → ((∃ p, genMask t andArgs (some (q'.map .cond)) = .ok p) ↔
      ∀ c ∈ q', t.has c.field = true → compErr c.comp c.vals = none) := by
    intro q' t hq'
    rw [genMask_eq hq', ← query_ok_iff (t := t) (andArgs := andArgs)]
    cases query t andArgs (q'.map .cond) with
    | error e => simp
    | ok o => cases o <;> simp
  constructor
  · rintro ⟨s', h⟩
    unfold select at h
    simp only [items] at h
    cases hs : substAll s.codes (q.map .cond) with
    | error e => rw [hs] at h; cases h
    | ok l =>
      rw [hs] at h
      obtain ⟨q', rfl, hf⟩ := substAll_conds hs
      dsimp only at h
      have hne : q' ≠ [] := by
        rintro rfl
        simp [genMask] at h
      refine ⟨?_, ?_⟩
      · rintro rfl
        cases hf
        exact hne rfl
      have hall : ∀ t : Tab S, (∃ p, genMask t andArgs (some (q'.map .cond)) = .ok p) → ∀ c ∈ q, t.has (fieldOf c.field) = true →
          codeField (longName c.field) = none → Proper c.comp c.vals := by
        intro t ht c hc hh hn
        obtain ⟨c', hc', hsub⟩ : ∃ c' ∈ q', subst s.codes c = .ok c' := by
          clear h hne ht hgen hs
          induction hf with
          | nil => cases hc
          | cons h1 _ ih =>
            rcases List.mem_cons.1 hc with rfl | hc
            · exact ⟨_, List.mem_cons_self, h1⟩
            · obtain ⟨c', m, e⟩ := ih hc
              exact ⟨c', List.mem_cons_of_mem _ m, e⟩
        obtain ⟨e1, _, e3⟩ := subst_spec hsub
        exact e3.1 ((hgen q' t hne).1 ht c' hc' (by rw [e1]; exact hh)) hn
      intro c hc
      obtain ⟨c', hsub⟩ : ∃ c', subst s.codes c = .ok c' := by
        clear h hne hgen hs hall
        induction hf with
        | nil => cases hc
        | cons h1 _ ih =>
          rcases List.mem_cons.1 hc with rfl | hc
          · exact ⟨_, h1⟩
          · exact ih hc
      have hcode := subst_ok_iff.1 ⟨c', hsub⟩
      unfold Testable
      cases hf' : codeField (longName c.field) with
      | some f =>
        dsimp only
        exact hcode (by rw [hf']; simp)
      | none =>
        dsimp only
        have hfield : fieldOf c.field = longName c.field := by unfold fieldOf; rw [hf']; rfl
        intro hh
        cases h1 : genMask s.inn andArgs (some (q'.map .cond)) with
        | error e => rw [h1] at h; cases h
        | ok pin =>
        rw [h1] at h
        dsimp only at h
        cases h2 : genMask s.bl andArgs (some (q'.map .cond)) with
        | error e => rw [h2] at h; cases h
        | ok pbl =>
        rw [h2] at h
        dsimp only at h
        cases h3 : genMask s.sp andArgs (some (q'.map .cond)) with
        | error e => rw [h3] at h; cases h
        | ok psp =>
        rw [h3] at h
        dsimp only at h
        cases h4 : genMask s.eng andArgs (some (q'.map .cond)) with
        | error e => rw [h4] at h; cases h
        | ok peng =>
        rw [h4] at h
        dsimp only at h
        cases h5 : genMask s.we andArgs (some (q'.map .cond)) with
        | error e => rw [h5] at h; cases h
        | ok pwe =>
        rw [h5] at h
        dsimp only at h
        rcases hh with hh | hh | hh | hh | hh | ⟨ha, hh⟩
        · exact hall _ ⟨_, h1⟩ c hc (by rw [hfield]; exact hh) hf'
        · exact hall _ ⟨_, h2⟩ c hc (by rw [hfield]; exact hh) hf'
        · exact hall _ ⟨_, h3⟩ c hc (by rw [hfield]; exact hh) hf'
        · exact hall _ ⟨_, h4⟩ c hc (by rw [hfield]; exact hh) hf'
        · exact hall _ ⟨_, h5⟩ c hc (by rw [hfield]; exact hh) hf'
        · rw [if_pos ha] at h
          cases h6 : genMask s.ac andArgs (some (q'.map .cond)) with
          | error e => rw [h6] at h; cases h
          | ok pac => exact hall _ ⟨_, h6⟩ c hc (by rw [hfield]; exact hh) hf'
  · rintro ⟨hq, hall⟩
    have hsub : ∃ q', List.Forall₂ (fun c c' => subst s.codes c = .ok c') q q' := by
      clear hq
      induction q with
      | nil => exact ⟨[], .nil⟩
      | cons c q ih =>
        obtain ⟨q', hq'⟩ := ih (fun c hc => hall c (List.mem_cons_of_mem _ hc))
        obtain ⟨c', hc'⟩ := (subst_ok_iff (codes := s.codes) (c := c)).2 (by
          intro hne
          have := hall c List.mem_cons_self
          unfold Testable at this
          cases hf : codeField (longName c.field) with
          | none => exact absurd hf hne
          | some f => rw [hf] at this; exact this)
        exact ⟨c' :: q', .cons hc' hq'⟩
    obtain ⟨q', hf⟩ := hsub
    have hne : q' ≠ [] := by
      rintro rfl
      cases hf
      exact hq rfl
    have hg : ∀ t : Tab S, (∀ c, t.has (longName c) = true → (s.inn.has (longName c) = true ∨ s.bl.has (longName c) = true ∨
        s.sp.has (longName c) = true ∨ s.eng.has (longName c) = true ∨ s.we.has (longName c) = true ∨
        (s.auto = true ∧ s.ac.has (longName c) = true))) → ∃ p, genMask t andArgs (some (q'.map .cond)) = .ok p := by
      intro t ht
      rw [hgen q' t hne]
      intro c' hc' hh
      obtain ⟨c, hc, hsub⟩ : ∃ c ∈ q, subst s.codes c = .ok c' := by
        clear hne hgen hq
        induction hf with
        | nil => cases hc'
        | cons h1 _ ih =>
          rcases List.mem_cons.1 hc' with rfl | hc'
          · exact ⟨_, List.mem_cons_self, h1⟩
          · obtain ⟨c, m, e⟩ := ih (fun c hc => hall c (List.mem_cons_of_mem _ hc)) hc'
            exact ⟨c, List.mem_cons_of_mem _ m, e⟩
      obtain ⟨e1, _, e3⟩ := subst_spec hsub
      rw [e3]
      intro hn
      have htest := hall c hc
      unfold Testable at htest
      rw [hn] at htest
      have hfield : fieldOf c.field = longName c.field := by unfold fieldOf; rw [hn]; rfl
      exact htest (ht c.field (by rw [← hfield, ← e1]; exact hh))
    obtain ⟨pin, h1⟩ := hg s.inn (fun c h => Or.inl h)
    obtain ⟨pbl, h2⟩ := hg s.bl (fun c h => Or.inr (Or.inl h))
    obtain ⟨psp, h3⟩ := hg s.sp (fun c h => Or.inr (Or.inr (Or.inl h)))
    obtain ⟨peng, h4⟩ := hg s.eng (fun c h => Or.inr (Or.inr (Or.inr (Or.inl h))))
    obtain ⟨pwe, h5⟩ := hg s.we (fun c h => Or.inr (Or.inr (Or.inr (Or.inr (Or.inl h)))))
    have h6 : ∃ pac, (if s.auto = true then genMask s.ac andArgs (some (q'.map .cond)) else .ok (fun _ => true)) = .ok pac := by
      by_cases ha : s.auto = true
      · obtain ⟨pac, h6⟩ := hg s.ac (fun c h => Or.inr (Or.inr (Or.inr (Or.inr (Or.inr ⟨ha, h⟩)))))
        exact ⟨pac, by rw [if_pos ha, h6]⟩
      · exact ⟨_, by rw [if_neg ha]⟩
    obtain ⟨pac, h6⟩ := h6
    unfold select
    simp only [items, substAll_ok hf, h1, h2, h3, h4, h5, h6]
    exact ⟨_, rfl⟩

end Verif.MirSel
