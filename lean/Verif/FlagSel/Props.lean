import Verif.FlagSel.Spec
import Verif.Select.RowProps
import Verif.CalSelect.Kept
import Mathlib.Tactic.Tauto

namespace Verif.FlagSel
open Verif.Np Verif.FreqSort
open Verif.Pol (Str)
open Verif.Select (PolReq pyGet wh join joinOpt mem_wh mem_join bind_ok In in_joinOpt joinOpt_none)
open Verif.CalSelect (via pos Picks eff picks_where picks_range mapM_ok)

variable {K V : Type}

/-! ## Stages -/

theorem mapM_total {ε β γ : Type} {f : β → Except ε γ} : ∀ {l : List β}, (∀ x ∈ l, ∃ y, f x = .ok y) → ∃ r, l.mapM f = .ok r := by
  intro l
  induction l with
  | nil => exact fun _ => ⟨[], rfl⟩
  | cons a l ih =>
    intro h
    obtain ⟨y, hy⟩ := h a List.mem_cons_self
    obtain ⟨r, hr⟩ := ih (fun x hx => h x (List.mem_cons_of_mem _ hx))
    refine ⟨y :: r, ?_⟩
    rw [List.mapM_cons, hy, hr]
    rfl

theorem mapMO_some {β γ : Type} {f : β → Option γ} : ∀ {l : List β} {r : List γ}, l.mapM f = some r →
    (∀ y, y ∈ r ↔ ∃ x ∈ l, f x = some y) ∧ ∀ x ∈ l, ∃ y, f x = some y := by
  intro l
  induction l with
  | nil => intro r h; cases h; simp
  | cons a l ih =>
    intro r h
    rw [List.mapM_cons] at h
    cases ha : f a with
    | none => rw [ha] at h; cases h
    | some b =>
      rw [ha] at h
      cases hl : l.mapM f with
      | none => rw [hl] at h; cases h
      | some bs =>
        rw [hl] at h
        cases h
        obtain ⟨h1, h2⟩ := ih hl
        constructor
        · intro y
          simp only [List.mem_cons, h1 y, exists_eq_or_imp, ha, Option.some.injEq]
          constructor
          · rintro (rfl | h)
            · exact Or.inl rfl
            · exact Or.inr h
          · rintro (rfl | h)
            · exact Or.inl rfl
            · exact Or.inr h
        · intro x hx
          rcases List.mem_cons.1 hx with rfl | hx
          · exact ⟨b, ha⟩
          · exact h2 x hx

theorem mapMO_total {β γ : Type} {f : β → Option γ} : ∀ {l : List β}, (∀ x ∈ l, ∃ y, f x = some y) → ∃ r, l.mapM f = some r := by
  intro l
  induction l with
  | nil => exact fun _ => ⟨[], rfl⟩
  | cons a l ih =>
    intro h
    obtain ⟨y, hy⟩ := h a List.mem_cons_self
    obtain ⟨r, hr⟩ := ih (fun x hx => h x (List.mem_cons_of_mem _ hx))
    refine ⟨y :: r, ?_⟩
    rw [List.mapM_cons, hy, hr]
    rfl

/-- The part of `Fits` about the form of the request. -/
def StrFits (c : Ctx) (o : Obj K V) (q : Req K) : Prop :=
  (o.ty = .waterfall → q.antNums = none ∧ q.bls = none) ∧
  ∀ s, q.antStr = some s → q.antNums = none ∧ q.bls = none ∧ q.pols = none ∧ o.ty = .baseline ∧
    ∃ r, c.parse s = .ok r ∧ r.1 ≠ some []

theorem isSome_or {α : Type} (x : Option α) : x.isSome = true ↔ x ≠ none := Option.isSome_iff_ne_none

theorem str_iff (c : Ctx) (o : Obj K V) (q : Req K) (s : Option (List Pair) × Option (List PolReq)) :
    strStage c o q = .ok s ↔ StrFits c o q ∧ s = asked c q := by
  unfold strStage StrFits asked
  by_cases hw : o.ty = .waterfall ∧ (q.antNums.isSome ∨ q.bls.isSome)
  · rw [if_pos hw]
    simp only [isSome_or] at hw
    constructor
    · intro h; cases h
    · rintro ⟨⟨h, -⟩, -⟩
      obtain ⟨h1, h2⟩ := h hw.1
      rcases hw.2 with h | h
      · exact absurd h1 h
      · exact absurd h2 h
  · rw [if_neg hw]
    have hw' : o.ty = .waterfall → q.antNums = none ∧ q.bls = none := by
      intro h
      simp only [isSome_or] at hw
      tauto
    cases hs : q.antStr with
    | none =>
      simp only [Except.ok.injEq]
      constructor
      · rintro rfl
        exact ⟨⟨hw', (fun s h => nomatch h)⟩, rfl⟩
      · exact fun h => h.2.symm
    | some str =>
      dsimp only
      by_cases h1 : q.antNums.isSome ∨ q.bls.isSome ∨ q.pols.isSome
      · rw [if_pos h1]
        simp only [isSome_or] at h1
        constructor
        · intro h; cases h
        · rintro ⟨⟨-, h⟩, -⟩
          obtain ⟨a, b, d, -⟩ := h str rfl
          tauto
      · rw [if_neg h1]
        by_cases h2 : o.ty ≠ .baseline
        · rw [if_pos h2]
          constructor
          · intro h; cases h
          · rintro ⟨⟨-, h⟩, -⟩
            exact absurd (h str rfl).2.2.2.1 h2
        · rw [if_neg h2]
          cases hp : c.parse str with
          | error e =>
            constructor
            · intro h; cases h
            · rintro ⟨⟨-, h⟩, -⟩
              obtain ⟨-, -, -, -, r, hr, -⟩ := h str rfl
              rw [hp] at hr
              cases hr
          | ok r =>
            dsimp only
            by_cases h3 : r.1 = some []
            · rw [if_pos h3]
              constructor
              · intro h; cases h
              · rintro ⟨⟨-, h⟩, -⟩
                obtain ⟨-, -, -, -, r', hr, hr2⟩ := h str rfl
                rw [hp] at hr
                cases hr
                exact absurd h3 hr2
            · rw [if_neg h3]
              simp only [Except.ok.injEq]
              constructor
              · rintro rfl
                refine ⟨⟨hw', ?_⟩, rfl⟩
                intro s hs
                cases hs
                simp only [isSome_or, not_or, not_not] at h1
                exact ⟨h1.1, h1.2.1, h1.2.2, not_not.1 h2, r, hp, h3⟩
              · exact fun h => h.2.symm

theorem hasAnt_iff (o : Obj K V) (a : Int) : hasAnt o a = true ↔ ∃ r ∈ o.rows, r.ant1 = a ∨ r.ant2 = a := by
  simp [hasAnt, List.any_eq_true]

/-- Rows for the antennas. -/
def antRows (o : Obj K V) (q : Req K) : Option (List Int) :=
  if o.ty = .baseline then
    q.antNums.map (fun nums => wh (fun r : Row K => nums.contains r.ant1 && nums.contains r.ant2) o.rows)
  else none

/-- The antenna axis. -/
def antIdx (o : Obj K V) (q : Req K) : Option (List Int) :=
  match q.antNums with
  | none => q.antInds
  | some nums => if o.ty = .baseline then q.antInds else some (nums.flatMap (fun a => wh (fun x => x == a) o.ants))

def AntFits (o : Obj K V) (q : Req K) : Prop :=
  ∀ l, q.antNums = some l → ∀ a ∈ l,
    (o.ty = .baseline → ∃ r ∈ o.rows, r.ant1 = a ∨ r.ant2 = a) ∧ (o.ty ≠ .baseline → a ∈ o.ants)

theorem ant_iff (o : Obj K V) (q : Req K) (a : Option (List Int) × Option (List Int)) :
    antStage o q = .ok a ↔ AntFits o q ∧ a = (antRows o q, antIdx o q) := by
  unfold antStage AntFits antRows antIdx
  cases hq : q.antNums with
  | none =>
    simp only [Except.ok.injEq]
    constructor
    · rintro rfl
      exact ⟨(fun l h => nomatch h), by simp⟩
    · rintro ⟨-, rfl⟩
      simp
  | some nums =>
    dsimp only
    by_cases hb : o.ty = .baseline
    · rw [if_pos hb, if_pos hb, if_pos hb]
      by_cases ha : nums.all (hasAnt o)
      · rw [if_pos ha]
        simp only [Except.ok.injEq]
        rw [List.all_eq_true] at ha
        constructor
        · rintro rfl
          refine ⟨?_, rfl⟩
          rintro l hl a hm
          cases hl
          exact ⟨fun _ => (hasAnt_iff o a).1 (ha a hm), fun h => absurd hb h⟩
        · rintro ⟨-, rfl⟩
          rfl
      · rw [if_neg ha]
        constructor
        · intro h; cases h
        · rintro ⟨h, -⟩
          refine absurd ?_ ha
          rw [List.all_eq_true]
          exact fun a hm => (hasAnt_iff o a).2 ((h nums rfl a hm).1 hb)
    · rw [if_neg hb, if_neg hb, if_neg hb]
      by_cases ha : nums.all (fun a => o.ants.contains a)
      · rw [if_pos ha]
        simp only [Except.ok.injEq]
        rw [List.all_eq_true] at ha
        constructor
        · rintro rfl
          refine ⟨?_, rfl⟩
          rintro l hl a hm
          cases hl
          exact ⟨fun h => absurd h hb, fun _ => by simpa using ha a hm⟩
        · rintro ⟨-, rfl⟩
          rfl
      · rw [if_neg ha]
        constructor
        · intro h; cases h
        · rintro ⟨h, -⟩
          refine absurd ?_ ha
          rw [List.all_eq_true]
          intro a hm
          simpa using (h nums rfl a hm).2 hb

theorem wh_ne_nil (o : Obj K V) (a b : Int) :
    wh (fun r : Row K => r.ant1 == a && r.ant2 == b) o.rows ≠ [] ↔ There o a b := by
  constructor
  · intro h
    obtain ⟨j, hj⟩ := List.exists_mem_of_ne_nil _ h
    obtain ⟨i, r, -, hr, hp⟩ := mem_wh.1 hj
    simp only [Bool.and_eq_true, beq_iff_eq] at hp
    exact ⟨r, List.mem_of_getElem? hr, hp⟩
  · rintro ⟨r, hr, hp⟩
    obtain ⟨i, hi⟩ := List.getElem?_of_mem hr
    exact List.ne_nil_of_mem (mem_wh.2 ⟨i, r, rfl, hi, by simpa using hp⟩)

/-- What a pair gives if it is there. -/
structure PairGives (c : Ctx) (o : Obj K V) (t : Pair) (y : List Int × List Str) : Prop where
  rows : ∀ j : Int, j ∈ y.1 ↔ ∃ (i : Nat) (r : Row K), j = i ∧ o.rows[i]? = some r ∧ PairOk o t.1 t.2.1 r
  pols : ∀ s', s' ∈ y.2 ↔ ∃ s, t.2.2 = some s ∧
    ((There o t.1 t.2.1 ∧ s' = s) ∨ (¬ There o t.1 t.2.1 ∧ c.conjPol s = some s'))

/-- The pair can be selected. -/
def PairFits (c : Ctx) (o : Obj K V) (t : Pair) : Prop :=
  There o t.1 t.2.1 ∨ (There o t.2.1 t.1 ∧ ∀ s, t.2.2 = some s → c.conjPol s ≠ none)

theorem There.left {o : Obj K V} {a b : Int} (h : There o a b) : hasAnt o a = true ∧ hasAnt o b = true := by
  obtain ⟨r, hr, h1, h2⟩ := h
  exact ⟨(hasAnt_iff o a).2 ⟨r, hr, Or.inl h1⟩, (hasAnt_iff o b).2 ⟨r, hr, Or.inr h2⟩⟩

theorem pair_ok (c : Ctx) (o : Obj K V) (t : Pair) (y : List Int × List Str) (h : pairRows c o t = .ok y) :
    PairFits c o t ∧ PairGives c o t y := by
  unfold pairRows at h
  by_cases ha : (!hasAnt o t.1 || !hasAnt o t.2.1) = true
  · rw [if_pos ha] at h; cases h
  rw [if_neg ha] at h
  dsimp only at h
  by_cases h1 : There o t.1 t.2.1
  · rw [if_pos ((wh_ne_nil o _ _).2 h1)] at h
    cases h
    refine ⟨Or.inl h1, ?_, ?_⟩
    · intro j
      rw [mem_wh]
      constructor
      · rintro ⟨i, r, hj, hr, hp⟩
        exact ⟨i, r, hj, hr, Or.inl (by simpa using hp)⟩
      · rintro ⟨i, r, hj, hr, hp | hp⟩
        · exact ⟨i, r, hj, hr, by simpa using hp⟩
        · exact absurd h1 hp.2.2
    · intro s'
      simp only [Option.mem_toList]
      constructor
      · intro hs
        exact ⟨s', hs, Or.inl ⟨h1, rfl⟩⟩
      · rintro ⟨s, hs, ⟨-, rfl⟩ | ⟨hn, -⟩⟩
        · exact hs
        · exact absurd h1 hn
  · rw [if_neg (fun hc => h1 ((wh_ne_nil o _ _).1 hc))] at h
    by_cases h2 : There o t.2.1 t.1
    · rw [if_pos ((wh_ne_nil o _ _).2 h2)] at h
      have hrows : ∀ j : Int, j ∈ wh (fun r : Row K => r.ant1 == t.2.1 && r.ant2 == t.1) o.rows ↔
          ∃ (i : Nat) (r : Row K), j = i ∧ o.rows[i]? = some r ∧ PairOk o t.1 t.2.1 r := by
        intro j
        rw [mem_wh]
        constructor
        · rintro ⟨i, r, hj, hr, hp⟩
          simp only [Bool.and_eq_true, beq_iff_eq] at hp
          exact ⟨i, r, hj, hr, Or.inr ⟨hp.1, hp.2, h1⟩⟩
        · rintro ⟨i, r, hj, hr, hp | hp⟩
          · exact absurd ⟨r, List.mem_of_getElem? hr, hp⟩ h1
          · exact ⟨i, r, hj, hr, by simpa using ⟨hp.1, hp.2.1⟩⟩
      cases hs : t.2.2 with
      | none =>
        rw [hs] at h
        cases h
        exact ⟨Or.inr ⟨h2, by rw [hs]; exact fun s h => nomatch h⟩, hrows, by rw [hs]; simp⟩
      | some s =>
        rw [hs] at h
        dsimp only at h
        cases hc : c.conjPol s with
        | none => rw [hc] at h; cases h
        | some s' =>
          rw [hc] at h
          cases h
          refine ⟨Or.inr ⟨h2, ?_⟩, hrows, ?_⟩
          · rw [hs]
            intro x hx
            cases hx
            rw [hc]
            simp
          · intro x
            rw [hs]
            simp only [List.mem_singleton, Option.some.injEq, exists_eq_left', h1, false_and, not_false_eq_true, true_and,
              false_or, hc, eq_comm]
    · rw [if_neg (fun hc => h2 ((wh_ne_nil o _ _).1 hc))] at h
      cases h

theorem pair_total (c : Ctx) (o : Obj K V) (t : Pair) (h : PairFits c o t) : ∃ y, pairRows c o t = .ok y := by
  unfold pairRows
  have ha : (!hasAnt o t.1 || !hasAnt o t.2.1) = false := by
    rcases h with h | ⟨h, -⟩
    · simp [h.left.1, h.left.2]
    · simp [h.left.1, h.left.2]
  rw [ha, if_neg (by simp)]
  dsimp only
  by_cases h1 : There o t.1 t.2.1
  · rw [if_pos ((wh_ne_nil o _ _).2 h1)]
    exact ⟨_, rfl⟩
  · rw [if_neg (fun hc => h1 ((wh_ne_nil o _ _).1 hc))]
    rcases h with h | ⟨h2, h3⟩
    · exact absurd h h1
    · rw [if_pos ((wh_ne_nil o _ _).2 h2)]
      cases hs : t.2.2 with
      | none => exact ⟨_, rfl⟩
      | some s =>
        dsimp only
        cases hc : c.conjPol s with
        | none => exact absurd hc (h3 s hs)
        | some s' => exact ⟨_, rfl⟩

/-- The part of `Fits` about pairs. -/
def BlFits (c : Ctx) (o : Obj K V) (bls : Option (List Pair)) (pols : Option (List PolReq)) : Prop :=
  ∀ l, bls = some l → o.ty = .baseline ∧ ((∀ t ∈ l, t.2.2 ≠ none) → pols = none) ∧ ∀ t ∈ l, PairFits c o t

/-- Polarizations that the pairs ask for. -/
def PairsPol (c : Ctx) (o : Obj K V) (bls : Option (List Pair)) (s' : Str) : Prop :=
  ∃ l, bls = some l ∧ ∃ t ∈ l, ∃ s, t.2.2 = some s ∧
    ((There o t.1 t.2.1 ∧ s' = s) ∨ (¬ There o t.1 t.2.1 ∧ c.conjPol s = some s'))

structure BlGives (c : Ctx) (o : Obj K V) (bls : Option (List Pair)) (pols : Option (List PolReq))
    (ants : Option (List Int)) (b : Option (List Int) × Option (List PolReq)) : Prop where
  isNone : b.1 = none ↔ bls = none ∧ ants = none
  rows : ∀ i : Nat, ∀ r : Row K, o.rows[i]? = some r →
    (In (i : Int) b.1 ↔ In (i : Int) ants ∧ ∀ l, bls = some l → ∃ t ∈ l, PairOk o t.1 t.2.1 r)
  range : (∀ l, ants = some l → ∀ i ∈ l, 0 ≤ i ∧ i < o.rows.length) →
    ∀ l, b.1 = some l → ∀ i ∈ l, 0 ≤ i ∧ i < o.rows.length
  none : (¬ ∃ s, PairsPol c o bls s) → b.2 = pols
  pols : (∃ s, PairsPol c o bls s) → ∃ ps, b.2 = some ps ∧ ∀ p, p ∈ ps ↔ ∃ s, PairsPol c o bls s ∧ p = .str s

theorem bl_ok (c : Ctx) (o : Obj K V) (bls : Option (List Pair)) (pols : Option (List PolReq)) (ants : Option (List Int))
    (b : Option (List Int) × Option (List PolReq)) (h : blStage c o bls pols ants = .ok b) :
    BlFits c o bls pols ∧ BlGives c o bls pols ants b := by
  unfold blStage at h
  cases bls with
  | none =>
    cases h
    refine ⟨(fun l h => nomatch h), ?_, ?_, ?_, fun _ => rfl, ?_⟩
    · simp
    · simp
    · exact fun h => h
    · rintro ⟨s, l, hl, -⟩
      cases hl
  | some l =>
    dsimp only at h
    by_cases ht : o.ty ≠ .baseline
    · rw [if_pos ht] at h; cases h
    rw [if_neg ht] at h
    by_cases hp : (l.all (fun t => t.2.2.isSome) && pols.isSome) = true
    · rw [if_pos hp] at h; cases h
    rw [if_neg hp] at h
    cases hm : l.mapM (pairRows c o) with
    | error e => rw [hm] at h; cases h
    | ok rows =>
      rw [hm] at h
      dsimp only at h
      obtain ⟨m1, m2⟩ := mapM_ok hm
      have hpr : ∀ s', s' ∈ (rows.flatMap (·.2)).dedup ↔ PairsPol c o (some l) s' := by
        intro s'
        rw [List.mem_dedup, List.mem_flatMap]
        constructor
        · rintro ⟨y, hy, hs⟩
          obtain ⟨t, htl, hty⟩ := (m1 y).1 hy
          exact ⟨l, rfl, t, htl, ((pair_ok c o t y hty).2.pols s').1 hs⟩
        · rintro ⟨l', hl', t, htl, hx⟩
          cases hl'
          obtain ⟨y, hy⟩ := m2 t htl
          exact ⟨y, (m1 y).2 ⟨t, htl, hy⟩, ((pair_ok c o t y hy).2.pols s').2 hx⟩
      have hmem : ∀ j : Int, j ∈ rows.flatMap (·.1) ↔ ∃ (i : Nat) (r : Row K), j = i ∧ o.rows[i]? = some r ∧
          ∃ t ∈ l, PairOk o t.1 t.2.1 r := by
        intro j
        rw [List.mem_flatMap]
        constructor
        · rintro ⟨y, hy, hj⟩
          obtain ⟨t, htl, hty⟩ := (m1 y).1 hy
          obtain ⟨i, r, h1, h2, h3⟩ := ((pair_ok c o t y hty).2.rows j).1 hj
          exact ⟨i, r, h1, h2, t, htl, h3⟩
        · rintro ⟨i, r, h1, h2, t, htl, h3⟩
          obtain ⟨y, hy⟩ := m2 t htl
          exact ⟨y, (m1 y).2 ⟨t, htl, hy⟩, ((pair_ok c o t y hy).2.rows j).2 ⟨i, r, h1, h2, h3⟩⟩
      refine ⟨?_, ?_⟩
      · rintro l' hl'
        cases hl'
        refine ⟨not_not.1 ht, ?_, fun t htl => (pair_ok c o t _ (m2 t htl).choose_spec).1⟩
        intro hall
        by_contra hne
        apply hp
        rw [Bool.and_eq_true, List.all_eq_true]
        exact ⟨fun t htl => Option.isSome_iff_ne_none.2 (hall t htl), Option.isSome_iff_ne_none.2 hne⟩
      · have hb : b = (some (join ants (rows.flatMap (·.1))), if (rows.flatMap (·.2)).dedup ≠ [] then
            some ((rows.flatMap (·.2)).dedup.map PolReq.str) else pols) := (Except.ok.inj h).symm
        subst hb
        refine ⟨by simp, ?_, ?_, ?_, ?_⟩
        · intro i r hr
          simp only [In, Option.some.injEq, forall_eq']
          rw [mem_join, hmem]
          constructor
          · rintro ⟨h1, i', r', hi, hr', h3⟩
            obtain rfl : i = i' := by omega
            rw [hr] at hr'
            cases hr'
            exact ⟨h1, h3⟩
          · rintro ⟨h1, h3⟩
            exact ⟨h1, i, r, rfl, hr, h3⟩
        · rintro - l' hl' i hi
          cases hl'
          obtain ⟨k, r, rfl, hr, -⟩ := (hmem i).1 (mem_join.1 hi).2
          have := (List.getElem?_eq_some_iff.1 hr).1
          omega
        · intro hn
          dsimp only
          rw [if_neg]
          simp only [ne_eq, not_not]
          rw [List.eq_nil_iff_forall_not_mem]
          exact fun s hs => hn ⟨s, (hpr s).1 hs⟩
        · rintro ⟨s, hs⟩
          refine ⟨(rows.flatMap (·.2)).dedup.map PolReq.str, ?_, ?_⟩
          · dsimp only
            rw [if_pos (List.ne_nil_of_mem ((hpr s).2 hs))]
          · intro p
            rw [List.mem_map]
            constructor
            · rintro ⟨s, hs, rfl⟩
              exact ⟨s, (hpr s).1 hs, rfl⟩
            · rintro ⟨s, hs, rfl⟩
              exact ⟨s, (hpr s).2 hs, rfl⟩

theorem bl_total (c : Ctx) (o : Obj K V) (bls : Option (List Pair)) (pols : Option (List PolReq)) (ants : Option (List Int))
    (h : BlFits c o bls pols) : ∃ b, blStage c o bls pols ants = .ok b := by
  unfold blStage
  cases bls with
  | none => exact ⟨_, rfl⟩
  | some l =>
    obtain ⟨h1, h2, h3⟩ := h l rfl
    dsimp only
    rw [if_neg (not_not.2 h1), if_neg]
    · obtain ⟨rows, hr⟩ := mapM_total (fun t ht => pair_total c o t (h3 t ht))
      rw [hr]
      exact ⟨_, rfl⟩
    · rw [Bool.and_eq_true, List.all_eq_true]
      rintro ⟨ha, hp⟩
      exact Option.isSome_iff_ne_none.1 hp (h2 (fun t ht => Option.isSome_iff_ne_none.1 (ha t ht)))

variable [LinearOrder K]

def TimeFits (o : Obj K V) (q : Req K) : Prop := ∀ l, q.times = some l → ∀ t ∈ l, ∃ r ∈ o.rows, r.time = t

/-- Rows of the times. -/
def timeRows (o : Obj K V) (q : Req K) : Option (List Int) :=
  q.times.map (fun ts => wh (fun r : Row K => ts.contains r.time) o.rows)

theorem time_iff (o : Obj K V) (q : Req K) (inds t : Option (List Int)) :
    timeStage o q inds = .ok t ↔ TimeFits o q ∧ t = joinOpt inds (timeRows o q) := by
  unfold timeStage TimeFits timeRows
  cases hq : q.times with
  | none =>
    simp only [Except.ok.injEq]
    constructor
    · rintro rfl
      exact ⟨(fun l h => nomatch h), rfl⟩
    · rintro ⟨-, rfl⟩
      rfl
  | some ts =>
    dsimp only
    by_cases ha : (ts.all (fun t => o.rows.any (fun r => r.time == t))) = true
    · rw [if_pos ha]
      simp only [List.all_eq_true, List.any_eq_true, beq_iff_eq] at ha
      simp only [Except.ok.injEq]
      constructor
      · rintro rfl
        exact ⟨(fun l h t ht => by cases h; exact ha t ht), rfl⟩
      · rintro ⟨-, rfl⟩
        rfl
    · rw [if_neg ha]
      constructor
      · intro h; cases h
      · rintro ⟨h, -⟩
        refine absurd ?_ ha
        simp only [List.all_eq_true, List.any_eq_true, beq_iff_eq]
        exact h ts rfl

omit [LinearOrder K] in
theorem final_iff (o : Obj K V) (m : Option (List Int)) (r : Option (List Nat)) :
    finalRows o m = .ok r ↔ (m = none ∧ r = none) ∨
      ∃ l, m = some l ∧ l ≠ [] ∧ (∀ i ∈ l, 0 ≤ i ∧ i < o.rows.length) ∧ r = some ((unique l).map Int.toNat) := by
  unfold finalRows
  cases m with
  | none => simp [eq_comm]
  | some l =>
    dsimp only
    by_cases h1 : l = []
    · rw [if_pos h1]; simp [h1]
    rw [if_neg h1]
    by_cases h2 : (l.any (fun i => decide ((o.rows.length : Int) ≤ i))) = true
    · rw [if_pos h2]
      simp only [List.any_eq_true, decide_eq_true_eq] at h2
      constructor
      · intro h; cases h
      · rintro (⟨h, -⟩ | ⟨l', hl', -, h, -⟩)
        · cases h
        · cases hl'
          obtain ⟨i, hi, hge⟩ := h2
          have := h i hi
          omega
    rw [if_neg h2]
    by_cases h3 : (l.any (fun i => decide (i < 0))) = true
    · rw [if_pos h3]
      simp only [List.any_eq_true, decide_eq_true_eq] at h3
      constructor
      · intro h; cases h
      · rintro (⟨h, -⟩ | ⟨l', hl', -, h, -⟩)
        · cases h
        · cases hl'
          obtain ⟨i, hi, hge⟩ := h3
          have := h i hi
          omega
    rw [if_neg h3]
    simp only [List.any_eq_true, decide_eq_true_eq, not_exists, not_and, not_le, not_lt] at h2 h3
    constructor
    · intro h
      exact Or.inr ⟨l, rfl, h1, fun i hi => ⟨h3 i hi, h2 i hi⟩, (Except.ok.inj h).symm⟩
    · rintro (⟨h, -⟩ | ⟨l', hl', -, h, rfl⟩)
      · cases h
      · cases hl'
        rfl

omit [LinearOrder K] in
theorem pyGet_iff (l : List K) (k : Int) (x : K) : pyGet l k = some x ↔ ∃ i, At l.length k i ∧ l[i]? = some x := by
  unfold pyGet At
  by_cases h0 : 0 ≤ k
  · rw [if_pos h0]
    constructor
    · intro h
      exact ⟨k.toNat, ⟨(List.getElem?_eq_some_iff.1 h).1, by omega⟩, h⟩
    · rintro ⟨i, ⟨hi, h⟩, hx⟩
      rcases h with h | h
      · rw [h]; simpa using hx
      · omega
  · rw [if_neg h0]
    by_cases h1 : -(l.length : Int) ≤ k
    · rw [if_pos h1]
      constructor
      · intro h
        exact ⟨(k + l.length).toNat, ⟨(List.getElem?_eq_some_iff.1 h).1, by omega⟩, h⟩
      · rintro ⟨i, ⟨hi, h⟩, hx⟩
        rcases h with h | h
        · omega
        · rw [h]; simpa using hx
    · rw [if_neg h1]
      constructor
      · intro h; cases h
      · rintro ⟨i, ⟨hi, h⟩, hx⟩
        omega

theorem pos_iff (n : Nat) (k : Int) (i : Nat) : pos n k = some i ↔ At n k i := by
  unfold pos At
  by_cases h0 : 0 ≤ k
  · rw [if_pos h0]
    by_cases h1 : k < n
    · rw [if_pos h1]
      simp only [Option.some.injEq]
      omega
    · rw [if_neg h1]
      constructor
      · intro h; cases h
      · rintro ⟨hi, h⟩; omega
  · rw [if_neg h0]
    by_cases h1 : -(n : Int) ≤ k
    · rw [if_pos h1]
      simp only [Option.some.injEq]
      omega
    · rw [if_neg h1]
      constructor
      · intro h; cases h
      · rintro ⟨hi, h⟩; omega

/-- The part of `Fits` about channels. -/
def FreqFits (o : Obj K V) (q : Req K) : Prop :=
  (∀ l, q.chans = some l → o.freq.length ≠ 1 ∧ ∀ k ∈ l, ∃ i, At o.freq.length k i) ∧
  ∀ l, q.freqs = some l → ∀ f ∈ l, f ∈ o.freq

/-- The frequencies asked for. -/
theorem freqReq_iff (o : Obj K V) (q : Req K) :
    (∀ f, freqReq o q = .ok f → (∀ l, q.chans = some l → o.freq.length ≠ 1 ∧ ∀ k ∈ l, ∃ i, At o.freq.length k i) ∧
      (f = none ↔ q.freqs = none ∧ q.chans = none) ∧ ∀ fs, f = some fs → ∀ x, x ∈ fs ↔ WantedFreq o q x) ∧
    ((∀ l, q.chans = some l → o.freq.length ≠ 1 ∧ ∀ k ∈ l, ∃ i, At o.freq.length k i) → ∃ f, freqReq o q = .ok f) := by
  unfold freqReq WantedFreq
  cases hc : q.chans with
  | none =>
    dsimp only
    refine ⟨?_, fun _ => ⟨_, rfl⟩⟩
    intro f hf
    cases hf
    refine ⟨(fun l h => nomatch h), by simp, ?_⟩
    intro fs hfs x
    simp [hfs]
  | some ch =>
    dsimp only
    by_cases h1 : o.freq.length = 1
    · rw [if_pos h1]
      exact ⟨(fun f h => nomatch h), fun h => absurd h1 (h ch rfl).1⟩
    rw [if_neg h1]
    cases hm : ch.mapM (pyGet o.freq) with
    | none =>
      refine ⟨(fun f h => nomatch h), ?_⟩
      intro h
      exfalso
      obtain ⟨r, hr⟩ := mapMO_total (f := pyGet o.freq) (l := ch) (fun k hk => by
        obtain ⟨i, hi⟩ := (h ch rfl).2 k hk
        exact ⟨o.freq[i]'hi.1, (pyGet_iff o.freq k _).2 ⟨i, hi, List.getElem?_eq_getElem hi.1⟩⟩)
      rw [hm] at hr
      cases hr
    | some fs =>
      obtain ⟨m1, m2⟩ := mapMO_some hm
      have hmem : ∀ x, x ∈ fs ↔ ∃ k ∈ ch, ∃ i, At o.freq.length k i ∧ o.freq[i]? = some x := by
        intro x
        rw [m1 x]
        exact exists_congr (fun k => and_congr_right (fun _ => pyGet_iff o.freq k x))
      have hfit : ∀ l, some ch = some l → o.freq.length ≠ 1 ∧ ∀ k ∈ l, ∃ i, At o.freq.length k i := by
        rintro l hl
        cases hl
        refine ⟨h1, fun k hk => ?_⟩
        obtain ⟨y, hy⟩ := m2 k hk
        obtain ⟨i, hi, -⟩ := (pyGet_iff o.freq k y).1 hy
        exact ⟨i, hi⟩
      cases hf : q.freqs with
      | none =>
        dsimp only
        refine ⟨?_, fun _ => ⟨_, rfl⟩⟩
        intro f hf
        cases hf
        refine ⟨hfit, by simp, ?_⟩
        intro gs hgs x
        cases hgs
        simp [hmem x]
      | some gs =>
        dsimp only
        refine ⟨?_, fun _ => ⟨_, rfl⟩⟩
        intro f hf
        cases hf
        refine ⟨hfit, by simp, ?_⟩
        intro hs hhs x
        cases hhs
        rw [mem_unique, List.mem_append, hmem x]
        simp

theorem freqStage_iff (o : Obj K V) (f : Option (List K)) (r : Option (List Nat)) :
    freqStage o f = .ok r ↔ (∀ fs, f = some fs → ∀ x ∈ fs, x ∈ o.freq) ∧
      r = f.map (fun fs => whereIdx (fun x => fs.contains x) o.freq) := by
  unfold freqStage
  cases f with
  | none => simp [eq_comm]
  | some fs =>
    dsimp only
    by_cases h : (fs.all (fun f => o.freq.contains f)) = true
    · rw [if_pos h]
      simp only [List.all_eq_true, List.contains_iff_mem] at h
      simp only [Except.ok.injEq, Option.map_some]
      constructor
      · rintro rfl
        exact ⟨(fun l hl => by cases hl; exact h), rfl⟩
      · rintro ⟨-, rfl⟩
        rfl
    · rw [if_neg h]
      constructor
      · intro h; cases h
      · rintro ⟨h', -⟩
        refine absurd ?_ h
        simp only [List.all_eq_true, List.contains_iff_mem]
        exact h' fs rfl

/-- Channels: what is kept, and when. -/
theorem chans_spec (o : Obj K V) (q : Req K) :
    (∀ f r, freqReq o q = .ok f → freqStage o f = .ok r →
      FreqFits o q ∧ Picks (eff o.freq.length r) o.freq.length (ChanOk o q)) ∧
    (FreqFits o q → ∃ f r, freqReq o q = .ok f ∧ freqStage o f = .ok r) := by
  obtain ⟨h1, h2⟩ := freqReq_iff o q
  constructor
  · intro f r hf hr
    obtain ⟨a1, a2, a3⟩ := h1 f hf
    obtain ⟨b1, rfl⟩ := (freqStage_iff o f r).1 hr
    refine ⟨⟨a1, ?_⟩, ?_⟩
    · intro l hl x hx
      cases f with
      | none => rw [(a2.1 rfl).1] at hl; cases hl
      | some fs => exact b1 fs rfl x ((a3 fs rfl x).2 (Or.inl ⟨l, hl, hx⟩))
    · cases f with
      | none =>
        refine picks_range _ (fun i hi => ?_)
        obtain ⟨e1, e2⟩ := a2.1 rfl
        rintro (h | h)
        · exact absurd e1 h
        · exact absurd e2 h
      | some fs =>
        refine picks_where _ _ (fun i x hx => ?_)
        have hasked : q.freqs ≠ none ∨ q.chans ≠ none := by
          by_contra hc
          push Not at hc
          exact nomatch a2.2 hc
        simp only [List.contains_iff_mem]
        rw [a3 fs rfl x]
        unfold ChanOk
        constructor
        · exact fun h _ => ⟨x, h, hx⟩
        · intro h
          obtain ⟨f, hw, hf⟩ := h hasked
          rw [hx] at hf
          cases hf
          exact hw
  · rintro ⟨g1, g2⟩
    obtain ⟨f, hf⟩ := h2 g1
    refine ⟨f, _, hf, (freqStage_iff o f _).2 ⟨?_, rfl⟩⟩
    rintro fs rfl x hx
    obtain ⟨-, -, a3⟩ := h1 _ hf
    rcases (a3 fs rfl x).1 hx with ⟨l, hl, hm⟩ | ⟨l, hl, k, -, i, -, hi⟩
    · exact g2 l hl x hm
    · exact List.mem_of_getElem? hi

omit [LinearOrder K] in
theorem polCode_iff (c : Ctx) (o : Obj K V) (p : PolReq) (n : Int) :
    polCode c o p = .ok n ↔ IsPol c p n ∧ PolReq.num n ∈ o.pols := by
  unfold polCode IsPol
  cases p with
  | num m =>
    dsimp only
    by_cases h : o.pols.contains (PolReq.num m) = true
    · rw [if_pos h]
      rw [List.contains_iff_mem] at h
      constructor
      · intro e; cases e; exact ⟨Or.inl rfl, h⟩
      · rintro ⟨e | ⟨s, e, -⟩, -⟩
        · cases e; rfl
        · cases e
    · rw [if_neg h]
      rw [List.contains_iff_mem] at h
      constructor
      · intro e; cases e
      · rintro ⟨e | ⟨s, e, -⟩, h'⟩
        · cases e; exact absurd h' h
        · cases e
  | str s =>
    dsimp only
    cases hs : c.polNum s with
    | none =>
      constructor
      · intro e; cases e
      · rintro ⟨e | ⟨s', e, h⟩, -⟩
        · cases e
        · cases e; rw [hs] at h; cases h
    | some m =>
      dsimp only
      by_cases h : o.pols.contains (PolReq.num m) = true
      · rw [if_pos h]
        rw [List.contains_iff_mem] at h
        constructor
        · intro e; cases e; exact ⟨Or.inr ⟨s, rfl, hs⟩, h⟩
        · rintro ⟨e | ⟨s', e, h'⟩, -⟩
          · cases e
          · cases e; rw [hs] at h'; cases h'; rfl
      · rw [if_neg h]
        rw [List.contains_iff_mem] at h
        constructor
        · intro e; cases e
        · rintro ⟨e | ⟨s', e, h'⟩, h2⟩
          · cases e
          · cases e; rw [hs] at h'; cases h'; exact absurd h2 h

omit [LinearOrder K] in
theorem pol_spec (c : Ctx) (o : Obj K V) (pols : Option (List PolReq)) :
    (∀ r, polStage c o pols = .ok r → (∀ ps, pols = some ps → ∀ p ∈ ps, ∃ n, IsPol c p n ∧ PolReq.num n ∈ o.pols) ∧
      Picks (eff o.pols.length r) o.pols.length
        (fun j => ∀ ps, pols = some ps → ∃ p ∈ ps, ∃ n, IsPol c p n ∧ o.pols[j]? = some (.num n))) ∧
    ((∀ ps, pols = some ps → ∀ p ∈ ps, ∃ n, IsPol c p n ∧ PolReq.num n ∈ o.pols) → ∃ r, polStage c o pols = .ok r) := by
  unfold polStage
  cases pols with
  | none =>
    refine ⟨?_, fun _ => ⟨_, rfl⟩⟩
    intro r h
    cases h
    exact ⟨(fun ps h => nomatch h), picks_range _ (fun i hi ps h => nomatch h)⟩
  | some ps =>
    dsimp only
    cases hm : ps.mapM (polCode c o) with
    | error e =>
      refine ⟨(fun r h => nomatch h), ?_⟩
      intro h
      exfalso
      obtain ⟨r, hr⟩ := mapM_total (f := polCode c o) (l := ps) (fun p hp => by
        obtain ⟨n, hn⟩ := h ps rfl p hp
        exact ⟨n, (polCode_iff c o p n).2 hn⟩)
      rw [hm] at hr
      cases hr
    | ok ns =>
      obtain ⟨m1, m2⟩ := mapM_ok hm
      dsimp only
      refine ⟨?_, fun _ => ⟨_, rfl⟩⟩
      intro r h
      cases h
      refine ⟨?_, ?_⟩
      · rintro l hl p hp
        cases hl
        obtain ⟨n, hn⟩ := m2 p hp
        exact ⟨n, (polCode_iff c o p n).1 hn⟩
      · refine picks_where _ _ (fun i x hx => ?_)
        rw [List.contains_iff_mem, List.mem_map]
        constructor
        · rintro ⟨n, hn, rfl⟩ l hl
          cases hl
          obtain ⟨p, hp, hpn⟩ := (m1 n).1 hn
          exact ⟨p, hp, n, ((polCode_iff c o p n).1 hpn).1, hx⟩
        · intro h
          obtain ⟨p, hp, n, hn, hx'⟩ := h ps rfl
          rw [hx] at hx'
          cases hx'
          exact ⟨n, (m1 n).2 ⟨p, hp, (polCode_iff c o p n).2 ⟨hn, List.mem_of_getElem? hx⟩⟩, rfl⟩

end Verif.FlagSel
