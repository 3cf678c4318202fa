import Verif.ReadSel.Spec

/-! # Which selections are made when one file is read -/

namespace Verif.ReadSel

variable {V F A D R : Type}

theorem Selects.congr {meets : Kw → V → R → Prop} {l : List R} {r r' : Req V} {out : Except Err (List R)}
    (h : Selects meets l r out) (hr : ∀ x ∈ l, Asked meets r x ↔ Asked meets r' x) : Selects meets l r' out := by
  obtain ⟨p, hp, ho⟩ := h
  exact ⟨p, fun x hx => (hp x hx).trans (hr x hx), ho⟩

/-- Nothing is lost if no keyword is given. -/
theorem Selects.all {meets : Kw → V → R → Prop} {l : List R} {r : Req V} {out : Except Err (List R)}
    (h : Selects meets l r out) (hl : l ≠ []) (hr : ∀ k, r k = none) : out = .ok l := by
  obtain ⟨p, hp, ho⟩ := h
  have : l.filter p = l := by
    rw [List.filter_eq_self]
    intro x hx
    exact (hp x hx).2 (fun k v hk => by rw [hr k] at hk; cases hk)
  rw [ho, this, if_neg hl]

/-- Two selections after each other. -/
theorem Selects.two {meets : Kw → V → R → Prop} {l l' : List R} {r₁ r₂ r : Req V} {out : Except Err (List R)}
    (h₁ : Selects meets l r₁ (.ok l')) (h₂ : Selects meets l' r₂ out)
    (hr : ∀ x, Asked meets r x ↔ Asked meets r₁ x ∧ Asked meets r₂ x) : Selects meets l r out := by
  obtain ⟨p, hp, ho⟩ := h₁
  obtain ⟨q, hq, hoq⟩ := h₂
  by_cases hn : l.filter p = []
  · rw [if_pos hn] at ho; cases ho
  · rw [if_neg hn] at ho
    have hl : l' = l.filter p := by injection ho
    refine ⟨fun x => p x && q x, ?_, ?_⟩
    · intro x hx
      rw [Bool.and_eq_true, hr x, hp x hx]
      constructor
      · rintro ⟨h1, h2⟩
        refine ⟨h1, (hq x ?_).1 h2⟩
        rw [hl]; exact List.mem_filter.2 ⟨hx, (hp x hx).2 h1⟩
      · rintro ⟨h1, h2⟩
        refine ⟨h1, (hq x ?_).2 h2⟩
        rw [hl]; exact List.mem_filter.2 ⟨hx, (hp x hx).2 h1⟩
    · rw [hoq, hl, List.filter_filter]
      have : (fun a => q a && p a) = (fun a => p a && q a) := funext (fun a => Bool.and_comm _ _)
      rw [this]

/-- A selection that is refused stays so if more is asked for. -/
theorem Selects.refuse {meets : Kw → V → R → Prop} {l : List R} {r₁ r : Req V} {e : Err}
    (h₁ : Selects meets l r₁ (.error e)) (hr : ∀ x, Asked meets r x → Asked meets r₁ x) : Selects meets l r (.error e) := by
  classical
  obtain ⟨p, hp, ho⟩ := h₁
  by_cases hn : l.filter p = []
  · rw [if_pos hn] at ho
    have hnone : ∀ x ∈ l, ¬ Asked meets r x := by
      intro x hx ha
      have := (hp x hx).2 (hr x ha)
      have : x ∈ l.filter p := List.mem_filter.2 ⟨hx, this⟩
      rw [hn] at this; cases this
    refine ⟨fun _ => false, fun x hx => ⟨(fun h => by cases h), fun h => absurd h (hnone x hx)⟩, ?_⟩
    rw [ho]; simp
  · rw [if_neg hn] at ho; cases ho

/-- Keywords that the type of file does not know are not given, and those that `read` forgets are not given. -/
structure Covered (ft : FileType) (r : Req V) : Prop where
  known : ∀ k ∈ mirOnly, r k = none
  names : r .catalogNames ≠ none → ft = .uvfits ∨ ft = .uvh5
  lst : ft = .miriad → (r .lsts ≠ none ∨ r .lstRange ≠ none) → ∃ k ∈ miriadAsk, r k ≠ none
  positions : ft = .miriad → r .bltInds = none ∧ r .freqChans = none

theorem only_eq {l : List Kw} {r : Req V} (h : ∀ k, k ∉ l → r k = none) : only l r = r := by
  funext k
  unfold only
  by_cases hk : k ∈ l
  · rw [if_pos hk]
  · rw [if_neg hk, h k hk]

theorem anyOf_iff (l : List Kw) (r : Req V) : anyOf l r = true ↔ ∃ k ∈ l, r k ≠ none := by
  simp [anyOf, List.any_eq_true, Option.isSome_iff_ne_none]

theorem asked_only {meets : Kw → V → R → Prop} {l : List Kw} {r : Req V} {x : R} :
    Asked meets (only l r) x ↔ ∀ k ∈ l, ∀ v, r k = some v → meets k v x := by
  constructor
  · intro h k hk v hv
    exact h k v (by simp [only, hk, hv])
  · intro h k v hv
    unfold only at hv
    by_cases hk : k ∈ l
    · rw [if_pos hk] at hv; exact h k hk v hv
    · rw [if_neg hk] at hv; cases hv

/-- Read one file with selections: the object has exactly the visibilities of the file that are asked for by every keyword;
it is an error if there is none. -/
theorem read_selects_partial {w : World V F A (List R)} {meets : Kw → V → R → Prop} {rows : F → List R} (hw : Keeps w meets rows)
    {ft : FileType} (hft : ft ≠ .mir) (f : F) (aux : Option A) {r : Req V} (hr : refused ft aux r = false) (hc : Covered ft r) :
    Selects meets (rows f) r (readOne w ft f aux r) := by
  have hknown := hc.known
  simp only [mirOnly, List.mem_cons, List.not_mem_nil, or_false, forall_eq_or_imp, forall_eq] at hknown
  obtain ⟨h1, h2, h3, h4⟩ := hknown
  have whole : (ft = .ms ∨ ft = .fhd ∨ ft = .mwa) → passed ft = [] ∧
      after w.three ft r = if anyOf afterWhole r then some (only afterWhole r) else none := by
    rintro (rfl | rfl | rfl) <;> exact ⟨rfl, rfl⟩
  have goWhole : (ft = .ms ∨ ft = .fhd ∨ ft = .mwa) → Selects meets (rows f) r (readOne w ft f aux r) := by
    intro hk
    unfold readOne
    rw [hr, if_neg (by decide)]
    obtain ⟨hp, ha⟩ := whole hk
    have hnames : r .catalogNames = none := by
      by_contra hne
      rcases hc.names hne with h | h <;> rw [h] at hk <;> simp at hk
    have hall : only afterWhole r = r := by
      apply only_eq
      intro k hk
      cases k <;> simp [afterWhole] at hk <;> assumption
    have hread := (hw.reader ft f aux (only (passed ft) r) hft).all (hw.full f) (by intro k; rw [hp]; simp [only])
    rw [hread, ha]
    dsimp only
    by_cases hany : anyOf afterWhole r = true
    · rw [if_pos hany]
      dsimp only
      rw [hall]
      exact hw.select r (rows f) (hw.full f) (Or.inr ⟨f, rfl⟩)
    · rw [if_neg hany]
      dsimp only
      have hnone : ∀ k, r k = none := by
        intro k
        by_contra hne
        rw [← hall] at hne
        unfold only at hne
        by_cases hk : k ∈ afterWhole
        · rw [if_pos hk] at hne
          exact hany ((anyOf_iff _ _).2 ⟨k, hk, hne⟩)
        · rw [if_neg hk] at hne; exact hne rfl
      refine ⟨fun _ => true, fun x _ => ⟨(fun _ k v hk => by rw [hnone k] at hk; cases hk), fun _ => rfl⟩, ?_⟩
      simp [hw.full f]
  have goFull : (ft = .uvfits ∨ ft = .uvh5) → only (passed ft) r = r ∧ after w.three ft r = none := by
    rintro (rfl | rfl) <;> refine ⟨only_eq ?_, rfl⟩ <;> intro k hk <;> cases k <;> simp [passed] at hk <;> assumption
  cases hcase : ft with
  | mir => exact absurd hcase hft
  | ms => rw [← hcase]; exact goWhole (Or.inl hcase)
  | fhd => rw [← hcase]; exact goWhole (Or.inr (Or.inl hcase))
  | mwa => rw [← hcase]; exact goWhole (Or.inr (Or.inr hcase))
  | uvfits =>
    rw [← hcase]
    unfold readOne
    rw [hr, if_neg (by decide)]
    obtain ⟨e1, e2⟩ := goFull (Or.inl hcase)
    rw [e1, e2]
    have h := hw.reader ft f aux r hft
    cases hrd : w.reader ft f aux r with
    | error e => rw [hrd] at h; exact h
    | ok d => rw [hrd] at h; exact h
  | uvh5 =>
    rw [← hcase]
    unfold readOne
    rw [hr, if_neg (by decide)]
    obtain ⟨e1, e2⟩ := goFull (Or.inr hcase)
    rw [e1, e2]
    have h := hw.reader ft f aux r hft
    cases hrd : w.reader ft f aux r with
    | error e => rw [hrd] at h; exact h
    | ok d => rw [hrd] at h; exact h
  | miriad =>
    subst hcase
    unfold readOne
    rw [hr, if_neg (by decide)]
    have hnames : r .catalogNames = none := by
      by_contra hne
      rcases hc.names hne with h | h <;> cases h
    have h := hw.reader .miriad f aux (only (passed .miriad) r) hft
    have hsplit : anyOf miriadAsk r = true → ∀ x, Asked meets r x ↔
        Asked meets (only (passed .miriad) r) x ∧ Asked meets (only miriadAfter r) x := by
      intro _ x
      rw [asked_only, asked_only]
      constructor
      · intro ha
        exact ⟨fun k _ v hv => ha k v hv, fun k _ v hv => ha k v hv⟩
      · rintro ⟨ha, hb⟩ k v hv
        cases k <;> first
          | exact ha _ (by decide) v hv
          | exact hb _ (by decide) v hv
          | (rw [hnames] at hv; cases hv)
          | (rw [h1] at hv; cases hv)
          | (rw [h2] at hv; cases hv)
          | (rw [h3] at hv; cases hv)
          | (rw [h4] at hv; cases hv)
    cases hrd : w.reader .miriad f aux (only (passed .miriad) r) with
    | error e =>
      rw [hrd] at h
      exact h.refuse (fun x ha => asked_only.2 (fun k _ v hv => ha k v hv))
    | ok d =>
      rw [hrd] at h
      dsimp only
      have hd : d ≠ [] := by
        obtain ⟨p, _, ho⟩ := h
        by_cases hn : (rows f).filter p = []
        · rw [if_pos hn] at ho; cases ho
        · rw [if_neg hn] at ho
          have : d = (rows f).filter p := by injection ho
          rw [this]; exact hn
      unfold after
      dsimp only
      by_cases hany : anyOf miriadAsk r = true
      · rw [if_pos hany]
        dsimp only
        have hpos := hc.positions rfl
        exact h.two (hw.select (only miriadAfter r) d hd (Or.inl (by simp [only, miriadAfter, hpos]))) (hsplit hany)
      · rw [if_neg hany]
        dsimp only
        have hask : ∀ k ∈ miriadAsk, r k = none := by
          intro k hk
          by_contra hne
          exact hany ((anyOf_iff _ _).2 ⟨k, hk, hne⟩)
        have hl : r .lsts = none ∧ r .lstRange = none := by
          constructor <;> by_contra hne
          · obtain ⟨k, hk, hne'⟩ := hc.lst rfl (Or.inl hne)
            exact hne' (hask k hk)
          · obtain ⟨k, hk, hne'⟩ := hc.lst rfl (Or.inr hne)
            exact hne' (hask k hk)
        simp only [miriadAsk, List.mem_cons, List.not_mem_nil, or_false, forall_eq_or_imp, forall_eq] at hask
        have : only (passed .miriad) r = r := by
          apply only_eq
          intro k hk
          cases k <;> simp [passed] at hk <;> simp_all
        rw [this] at h
        exact h

/-- Two of the keywords cannot be given together, whatever the file. -/
theorem read_refused (w : World V F A D) (ft : FileType) (f : F) (aux : Option A) (r : Req V)
    (h : r .times ≠ none ∧ r .timeRange ≠ none ∨ r .antennaNums ≠ none ∧ r .antennaNames ≠ none) :
    readOne w ft f aux r = .error .value := by
  have : refused ft aux r = true := by
    unfold refused
    rcases h with ⟨h1, h2⟩ | ⟨h1, h2⟩ <;> simp [Option.isSome_iff_ne_none, h1, h2]
  unfold readOne
  rw [if_pos this]

theorem reader_congr {w : World V F A D} {ft : FileType} {f : F} {aux : Option A} {r r' : Req V}
    (h1 : refused ft aux r = refused ft aux r') (h2 : only (passed ft) r = only (passed ft) r')
    (h3 : after w.three ft r = after w.three ft r') : readOne w ft f aux r = readOne w ft f aux r' := by
  unfold readOne
  rw [h1, h2, h3]

/-- A keyword is ignored: with it, the same object is read. -/
def Ignored (w : World V F A D) (ft : FileType) (k : Kw) (r : Req V) : Prop :=
  ∀ f aux, readOne w ft f aux r = readOne w ft f aux (without [k] r)

/-- `catalog_names` does nothing for Miriad files, measurement sets, FHD and MWA files. -/
theorem names_ignored_counterexample (w : World V F A D) (ft : FileType) (hft : ft ≠ .uvfits ∧ ft ≠ .uvh5 ∧ ft ≠ .mir)
    (r : Req V) : Ignored w ft .catalogNames r := by
  intro f aux
  obtain ⟨n1, n2, n3⟩ := hft
  cases ft <;> first
    | exact absurd rfl n1
    | exact absurd rfl n2
    | exact absurd rfl n3
    | (apply reader_congr
       · rfl
       · funext k; cases k <;> rfl
       · simp only [after]
         have e : ∀ l, (.catalogNames ∉ l) → anyOf l (without [.catalogNames] r) = anyOf l r ∧
             only l (without [.catalogNames] r) = only l r := by
           intro l hl
           constructor
           · rw [Bool.eq_iff_iff, anyOf_iff, anyOf_iff]
             apply exists_congr; intro k; apply and_congr_right; intro hk
             have : k ∉ [Kw.catalogNames] := by
               intro hm; rw [List.mem_singleton] at hm; exact hl (hm ▸ hk)
             simp only [without, if_neg this]
           · funext k
             unfold only without
             by_cases hk : k ∈ l
             · have : k ∉ [Kw.catalogNames] := by
                 intro hm; rw [List.mem_singleton] at hm; exact hl (hm ▸ hk)
               rw [if_pos hk, if_pos hk, if_neg this]
             · rw [if_neg hk, if_neg hk]
         first
          | rw [(e afterWhole (by decide)).1, (e afterWhole (by decide)).2]
          | rw [(e miriadAsk (by decide)).1, (e miriadAfter (by decide)).2])

/-- `lsts` and `lst_range` do nothing for Miriad files if none of six other keywords is given. -/
theorem lst_ignored_counterexample (w : World V F A D) (k : Kw) (hk : k = .lsts ∨ k = .lstRange) (r : Req V)
    (hr : ∀ k' ∈ miriadAsk, r k' = none) : Ignored w .miriad k r := by
  intro f aux
  apply reader_congr
  · rcases hk with rfl | rfl <;> rfl
  · funext k'; rcases hk with rfl | rfl <;> cases k' <;> rfl
  · have e1 : anyOf miriadAsk r = false := by
      rw [Bool.eq_false_iff]
      intro h
      obtain ⟨k', hk', hne⟩ := (anyOf_iff _ _).1 h
      exact hne (hr k' hk')
    have e2 : anyOf miriadAsk (without [k] r) = false := by
      rw [Bool.eq_false_iff]
      intro h
      obtain ⟨k', hk', hne⟩ := (anyOf_iff _ _).1 h
      apply hne
      unfold without
      split
      · rfl
      · exact hr k' hk'
    simp only [after, e1, e2]
    rfl

/-- `ant_str` does nothing for MIR files. -/
theorem string_ignored_counterexample (w : World V F A D) (r : Req V) : Ignored w .mir .antStr r := by
  intro f aux
  apply reader_congr
  · rfl
  · funext k; cases k <;> rfl
  · have : mirReq w.three (without [.antStr] r) = mirReq w.three r := by
      funext k; cases k <;> rfl
    simp only [after, this]

/-- Baselines of a MIR file are selected once more after reading if one of them has a polarization, and only then. -/
theorem mir_baselines (w : World V F A D) (f : F) (aux : Option A) (r : Req V) (v : V) (hv : r .bls = some v)
    (h : ¬ (r .times ≠ none ∧ r .timeRange ≠ none ∨ r .antennaNums ≠ none ∧ r .antennaNames ≠ none)) (d : D)
    (hd : w.reader .mir f aux (only (passed .mir) r) = .ok d) :
    (w.three v = true → ∃ r', r' .bls = some v ∧ readOne w .mir f aux r = w.select r' d) ∧
    (w.three v = false → (∃ r', r' .bls = none ∧ readOne w .mir f aux r = w.select r' d) ∨ readOne w .mir f aux r = .ok d) := by
  have href : refused .mir aux r = false := by
    rw [Bool.eq_false_iff]
    intro g
    apply h
    unfold refused at g
    simp only [reduceCtorEq, decide_false, Bool.false_and, Bool.false_or, Bool.or_eq_true, Bool.and_eq_true, Option.isSome_iff_ne_none] at g
    rcases g with ⟨g1, g2⟩ | ⟨g1, g2⟩
    · exact Or.inl ⟨g2, g1⟩
    · exact Or.inr ⟨g2, g1⟩
  have hb : mirReq w.three r .bls = (some v).filter (fun v => w.three v) := by
    show (r .bls).filter _ = _
    rw [hv]
  unfold readOne
  rw [href, hd]
  simp only [Bool.false_eq_true, if_false, after]
  constructor
  · intro ht
    have h1 : mirReq w.three r .bls = some v := by rw [hb, Option.filter_some, ht]; rfl
    have h2 : anyOf (.bls :: mirAfter) (mirReq w.three r) = true := (anyOf_iff _ _).2 ⟨.bls, by simp, by rw [h1]; simp⟩
    refine ⟨mirReq w.three r, h1, ?_⟩
    rw [if_pos h2]
  · intro ht
    have h1 : mirReq w.three r .bls = none := by rw [hb, Option.filter_some, ht]; rfl
    by_cases g : anyOf (.bls :: mirAfter) (mirReq w.three r) = true
    · left
      refine ⟨mirReq w.three r, h1, ?_⟩
      rw [if_pos g]
    · right
      rw [if_neg g]

end Verif.ReadSel
