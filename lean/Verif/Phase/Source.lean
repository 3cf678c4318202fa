import Verif.Phase.Apply
import Verif.PhaseCat.OpProps

/-!
# The source that `phase` finds, and the catalog entry it makes
-/

namespace Verif.Phase

open Verif.PhaseCat
open Verif.Pol (Str)

theorem genEntry_kind {c : Consts} {raw g : Entry} (h : genEntry c raw = .ok g) :
    g.type = raw.type ∧ g.name = raw.name := by
  have hw : (withDefaults c raw).type = raw.type ∧ (withDefaults c raw).name = raw.name := by
    unfold withDefaults
    split_ifs <;> exact ⟨rfl, rfl⟩
  unfold genEntry at h
  split at h
  · simp at h
  · simp only at h
    split at h
    · simp only [bind_ok, pure, Except.pure, Except.ok.injEq] at h
      obtain ⟨_, _, _, _, _, _, _, _, rfl⟩ := h
      exact hw
    · simp only [bind_ok, pure, Except.pure, Except.ok.injEq] at h
      obtain ⟨_, _, _, _, _, _, _, _, _, _, _, _, rfl⟩ := h
      exact hw

/-- `_add_phase_center` without an ID takes a new one. -/
theorem add_none_fresh {c : Consts} {pop : Pop} {s s' : St} {raw : Entry} {force : Bool} {k : Int}
    (h : add c pop s raw none force = .ok (s', k)) : s' = s ∨ k ∉ keys s.cat := by
  unfold add at h
  rw [bind_ok] at h
  obtain ⟨e, he, h⟩ := h
  rw [bind_ok] at h
  obtain ⟨n, hn, h⟩ := h
  simp only [pure, Except.pure, Except.ok.injEq] at h
  simp only [addId] at hn
  have hf := (generateId_fresh pop _ _ _ _ _ hn).2.1 _ rfl
  unfold PhaseCat.insert at h
  split at h
  · simp only [Prod.mk.injEq] at h
    exact .inl h.1.symm
  · simp only [Prod.mk.injEq] at h
    right
    rw [← h.2]
    intro hm
    simpa using hf hm

/-- What the new catalog is: the old one, if it has an equivalent entry of the same name; otherwise
the new entry is put at the given ID, or at a new one. -/
theorem add_cases {c : Consts} {pop : Pop} {s s' : St} {raw : Entry} {id : Option Int} {k : Int}
    (hs : Consistent s) (h : add c pop s raw id true = .ok (s', k)) :
    Consistent s' ∧ s'.ids = s.ids ∧ ∃ g, genEntry c raw = .ok g ∧
      ((s' = s ∧ ∃ x, (k, x) ∈ s.cat ∧ Matches c false g x) ∨
       ((∀ j x, (j, x) ∈ s.cat → ¬Matches c false g x) ∧ s'.cat = put s.cat k g ∧
        (id = none → k ∉ keys s.cat) ∧ ∀ j, id = some j → k = j)) := by
  obtain ⟨h1, h2, -, g, h3, h4⟩ := add_spec hs h
  refine ⟨h1, h2, g, h3, ?_⟩
  rcases h4 with h4 | ⟨h4, h5, -, h6⟩
  · exact .inl h4
  · by_cases hm : s' = s ∧ ∃ x, (k, x) ∈ s.cat ∧ Matches c false g x
    · exact .inl hm
    · refine .inr ⟨h4, h5, ?_, h6⟩
      rintro rfl
      rcases add_none_fresh h with rfl | h7
      · -- the new entry would be in the catalog although nothing changed
        intro hk
        obtain ⟨x, hx⟩ := mem_keys.1 hk
        have : (k, g) ∈ s'.cat := by
          rw [h5]
          exact mem_put.2 (.inl ⟨rfl, rfl⟩)
        unfold add at h
        rw [bind_ok] at h
        obtain ⟨e, he, h⟩ := h
        rw [bind_ok] at h
        obtain ⟨n, hn, h⟩ := h
        simp only [pure, Except.pure, Except.ok.injEq] at h
        rw [h3] at he
        obtain rfl := Except.ok.inj he
        simp only [addId] at hn
        have hf := (generateId_fresh pop _ _ _ _ _ hn).2.1 _ rfl
        unfold PhaseCat.insert at h
        split at h
        · rename_i t hl
          simp only [Prod.mk.injEq] at h
          obtain ⟨-, rfl⟩ := h
          rcases look_spec c s'.cat g false with ⟨t', x', hl', hx', hm'⟩ | ⟨hl', -⟩
          · exact h4 _ _ hx' hm'
          · exact hl' _ hl
        · simp only [Prod.mk.injEq] at h
          obtain ⟨-, rfl⟩ := h
          simpa using hf hk
      · exact h7

/-- The loop of `look_in_catalog` returns what it started with or an entry of the name. -/
theorem best_cases (d : Entry → Nat) (name : Str) : ∀ (cat : Cat) (m : Option Int × Nat),
    best d name cat m = m ∨ ∃ k e, (k, e) ∈ cat ∧ e.name = name ∧ best d name cat m = (some k, d e) := by
  intro cat
  induction cat with
  | nil => intro m; exact .inl rfl
  | cons q rest ih =>
    obtain ⟨k, e⟩ := q
    intro m
    have lift : ∀ m', (best d name rest m' = m' ∨ ∃ k e, (k, e) ∈ rest ∧ e.name = name ∧
        best d name rest m' = (some k, d e)) := ih
    unfold best
    by_cases h1 : name ≠ e.name
    · rw [if_pos h1]
      rcases lift m with h | ⟨k', e', a, b, h⟩
      · exact .inl h
      · exact .inr ⟨k', e', by simp [a], b, h⟩
    · rw [if_neg h1]
      push Not at h1
      by_cases h2 : d e < m.2
      · rw [if_pos h2]
        by_cases h3 : d e = 0
        · rw [if_pos h3]
          exact .inr ⟨k, e, by simp, h1.symm, by rw [h3]⟩
        · rw [if_neg h3]
          rcases lift (some k, d e) with h | ⟨k', e', a, b, h⟩
          · exact .inr ⟨k, e, by simp, h1.symm, h⟩
          · exact .inr ⟨k', e', by simp [a], b, h⟩
      · rw [if_neg h2]
        by_cases h3 : m.2 = 0
        · rw [if_pos h3]; exact .inl rfl
        · rw [if_neg h3]
          rcases lift m with h | ⟨k', e', a, b, h⟩
          · exact .inl h
          · exact .inr ⟨k', e', by simp [a], b, h⟩

theorem argDiffs_type {c : Consts} {t : Call} {q : Entry} (h : argDiffs c t q = 0) :
    t.type = some q.type := by
  unfold argDiffs at h
  simp only at h
  have : fieldDiff (fun a b => decide (a = b)) t.type (some q.type) = 0 := by omega
  exact fieldDiff_eq.1 this

theorem mem_named {cat : Cat} {n : Str} {k : Int} : k ∈ named cat n ↔ ∃ e, (k, e) ∈ cat ∧ e.name = n := by
  unfold named
  simp only [List.mem_map, List.mem_filter, decide_eq_true_eq]
  constructor
  · rintro ⟨⟨k', e⟩, ⟨h1, h2⟩, rfl⟩
    exact ⟨e, h1, h2⟩
  · rintro ⟨e, h1, h2⟩
    exact ⟨(k, e), ⟨h1, h2⟩, rfl⟩

/-- The name is not in the catalog. -/
def FreshName (cat : Cat) (n : Str) : Prop := ∀ k e, (k, e) ∈ cat → e.name ≠ n

theorem fresh_iff {cat : Cat} {n : Str} : FreshName cat n ↔ named cat n = [] := by
  rw [List.eq_nil_iff_forall_not_mem]
  unfold FreshName
  constructor
  · intro h k hk
    obtain ⟨e, h1, h2⟩ := mem_named.1 hk
    exact h k e h1 h2
  · intro h k e h1 h2
    exact h k (mem_named.2 ⟨e, h1, h2⟩)

/-- Where the source comes from: it is new, it is an entry of the catalog, or it is what the
arguments say although the catalog has an entry of that name. -/
inductive Found (cat : Cat) (t : Call) : Entry → Option Int → Prop
  | user : FreshName cat t.name → t.lookup = false → Found cat t (userEntry t) none
  | jpl {e : Entry} : FreshName cat t.name → t.lookup = true → e.type = ephem → e.name = t.name →
      t.type = none ∨ t.type = some ephem → Found cat t e none
  | stored {k : Int} {x : Entry} : (k, x) ∈ cat → x.name = t.name →
      (t.lookup = false → t.type = some x.type) → Found cat t (storedEntry t x) (some k)
  | clash {id : Option Int} : ¬ FreshName cat t.name → t.lookup = false →
      (∀ k, id = some k → ∃ x, (k, x) ∈ cat ∧ x.name = t.name) → Found cat t (userEntry t) id

theorem findSource_found {env : Env} {cat : Cat} {t : Call} {time : List ℝ} {e : Entry} {id : Option Int}
    (hn : (keys cat).Nodup) (h : findSource env cat t time = .ok (e, id)) : Found cat t e id := by
  unfold findSource at h
  simp only at h
  by_cases h1 : t.lookup = true ∧ (named cat t.name).length > 1
  · rw [if_pos h1] at h; simp at h
  rw [if_neg h1] at h
  by_cases h2 : t.lookup = true ∧ named cat t.name = []
  · rw [if_pos h2] at h
    by_cases h3 : t.type = none ∨ t.type = some ephem
    · rw [if_pos h3] at h
      split at h
      · simp at h
      · simp only [Except.ok.injEq, Prod.mk.injEq] at h
        obtain ⟨rfl, rfl⟩ := h
        exact .jpl (fresh_iff.2 h2.2) h2.1 rfl rfl h3
    · rw [if_neg h3] at h; simp at h
  rw [if_neg h2] at h
  cases h3 : (named cat t.name).getLast? with
  | none =>
    rw [h3] at h
    simp only [Except.ok.injEq, Prod.mk.injEq] at h
    obtain ⟨rfl, rfl⟩ := h
    rw [List.getLast?_eq_none_iff] at h3
    refine .user (fresh_iff.2 h3) ?_
    by_contra hl
    exact h2 ⟨by simpa using hl, h3⟩
  | some k =>
    rw [h3] at h
    simp only at h
    have hk := List.mem_of_getLast? h3
    by_cases hl : t.lookup = true
    · rw [if_pos hl] at h
      cases hg : PhaseCat.get cat k with
      | none => rw [hg] at h; simp at h
      | some x =>
        rw [hg] at h
        simp only [Except.ok.injEq, Prod.mk.injEq] at h
        obtain ⟨rfl, rfl⟩ := h
        have hx := (get_some hn).1 hg
        obtain ⟨x', hx', hxn⟩ := mem_named.1 hk
        rw [← key_unique hn hx hx'] at hxn
        exact .stored hx hxn (fun h0 => by rw [hl] at h0; simp at h0)
    · rw [if_neg hl] at h
      by_cases h4 : ∃ ty, t.type = some ty ∧ ¬ (ty = sidereal ∨ ty = ephem ∨ ty = unprojected ∨ ty = driftscan)
      · rw [if_pos h4] at h; simp at h
      rw [if_neg h4] at h
      have hnf : ¬ FreshName cat t.name := by
        rw [fresh_iff]
        intro h0
        rw [h0] at hk
        simp at hk
      have hlf : t.lookup = false := by simpa using hl
      rcases hb : best (argDiffs env.c t) t.name cat (none, 99999) with ⟨j, dd⟩
      rw [hb] at h
      have hcl : ∀ (id : Option Int), id = j → ∀ k, id = some k → ∃ x, (k, x) ∈ cat ∧ x.name = t.name := by
        rintro _ rfl k' rfl
        rcases best_cases (argDiffs env.c t) t.name cat (none, 99999) with h5 | ⟨k2, e2, a, b, h5⟩
        · rw [hb] at h5; simp at h5
        · rw [hb] at h5
          simp only [Prod.mk.injEq, Option.some.injEq] at h5
          exact ⟨e2, by rw [h5.1]; exact a, b⟩
      split at h
      · rename_i j' heq
        simp only [Prod.mk.injEq] at heq
        obtain ⟨rfl, rfl⟩ := heq
        cases hg : PhaseCat.get cat j' with
        | none => rw [hg] at h; simp at h
        | some x =>
          rw [hg] at h
          simp only [Except.ok.injEq, Prod.mk.injEq] at h
          obtain ⟨rfl, rfl⟩ := h
          have hx := (get_some hn).1 hg
          rcases best_cases (argDiffs env.c t) t.name cat (none, 99999) with h5 | ⟨k2, e2, a, b, h5⟩
          · rw [hb] at h5; simp at h5
          · rw [hb] at h5
            simp only [Prod.mk.injEq, Option.some.injEq] at h5
            obtain ⟨rfl, h6⟩ := h5
            obtain rfl := key_unique hn hx a
            exact .stored hx b (fun _ => argDiffs_type h6.symm)
      · rename_i j' d' hne heq
        simp only [Prod.mk.injEq] at heq
        obtain ⟨rfl, rfl⟩ := heq
        simp only [Except.ok.injEq, Prod.mk.injEq] at h
        obtain ⟨rfl, rfl⟩ := h
        exact .clash hnf hlf (hcl _ rfl)

theorem coverTimes_kind {env : Env} {time : List ℝ} {r r' : Entry × Option Int}
    (h : coverTimes env time r = .ok r') :
    r'.2 = r.2 ∧ r'.1.type = r.1.type ∧ r'.1.name = r.1.name ∧ (r.1.type ≠ ephem → r' = r) := by
  unfold coverTimes at h
  by_cases h1 : r.1.type ≠ ephem
  · rw [if_pos h1] at h
    simp only [Except.ok.injEq] at h
    subst h
    exact ⟨rfl, rfl, rfl, fun _ => rfl⟩
  · rw [if_neg h1] at h
    have : ∀ q : Prop, (r.1.type ≠ ephem → q) := fun q h0 => absurd h0 h1
    split at h
    · simp at h
    · split at h
      · simp at h
      · simp only at h
        split at h
        · split at h
          · split at h
            · simp at h
            · simp only [Except.ok.injEq] at h
              subst h
              exact ⟨rfl, rfl, rfl, this _⟩
          · simp at h
        · simp only [Except.ok.injEq] at h
          subst h
          exact ⟨rfl, rfl, rfl, this _⟩

/-- Flattening an ephemeris does not change the entry that is made of it. -/
theorem genEntry_flat (c : Consts) (e : Entry) (he : e.type = ephem) (tv : Val)
    (ht : e.times = some tv) :
    genEntry c (flatEntry e tv) = genEntry c e := by
  have hne : ¬ (ephem = unprojected ∨ ephem = driftscan) := by decide
  have hf : ∀ v, flat v = valList v := by intro v; cases v <;> rfl
  have hr : ∀ n o, reshape n (Option.map (Val.vec ∘ valList) o) =
      reshape n o := by
    intro n o
    cases o with
    | none => rfl
    | some v => simp [reshape, hf, valList]
  have herr : entryErr c (flatEntry e tv) = entryErr c e := by
    have e1 : ¬ (e.type = unprojected) := by rw [he]; decide
    unfold entryErr flatEntry
    simp only [Option.isNone_map, ht, Option.isNone_some, Option.isSome_some, e1, false_and, if_false]
  have hd : ∀ e' : Entry, e'.type = ephem → withDefaults c e' = e' := by
    intro e' he'
    unfold withDefaults
    rw [he', if_neg hne]
  unfold genEntry
  rw [hd (flatEntry e tv) he, hd e he, herr]
  cases entryErr c e with
  | some err => rfl
  | none =>
    simp only [flatEntry, he, if_true, hr, ht, Option.map_some, Option.getD_some, hf, valList]


theorem coverTimes_gen {env : Env} {time : List ℝ} {r r' : Entry × Option Int} (hi : r.1.info ≠ jplh)
    (h : coverTimes env time r = .ok r') : genEntry env.c r'.1 = genEntry env.c r.1 := by
  by_cases h1 : r.1.type ≠ ephem
  · rw [(coverTimes_kind h).2.2.2 h1]
  · push Not at h1
    unfold coverTimes at h
    rw [if_neg (by simp [h1])] at h
    split at h
    · simp at h
    · rename_i tv ht
      split at h
      · simp at h
      · simp only at h
        split at h
        · rw [if_neg (show (flatEntry r.1 tv).info ≠ jplh from hi)] at h
          simp at h
        · simp only [Except.ok.injEq] at h
          subst h
          exact genEntry_flat env.c r.1 h1 tv ht

theorem phaseDict_found {env : Env} {cat : Cat} {t : Call} {time : List ℝ} {e : Entry} {id : Option Int}
    (hn : (keys cat).Nodup) (h : phaseDict env cat t time = .ok (e, id)) :
    ∃ e0, Found cat t e0 id ∧ e.type = e0.type ∧ e.name = e0.name ∧ (e0.type ≠ ephem → e = e0) ∧
      (e0.info ≠ jplh → genEntry env.c e = genEntry env.c e0) := by
  unfold phaseDict at h
  cases hf : findSource env cat t time with
  | error err => rw [hf] at h; simp at h
  | ok r =>
    rw [hf] at h
    simp only at h
    obtain ⟨h1, h2, h3, h4⟩ := coverTimes_kind h
    obtain ⟨e0, id0⟩ := r
    simp only at h1 h2 h3 h4
    subst h1
    exact ⟨e0, findSource_found hn hf, h2, h3, fun h0 => (Prod.mk.inj (h4 h0)).1,
      fun h0 => coverTimes_gen h0 h⟩

theorem found_name {cat : Cat} {t : Call} {e : Entry} {id : Option Int} (h : Found cat t e id) :
    e.name = t.name := by
  cases h with
  | user _ _ => rfl
  | jpl _ _ _ h _ => exact h
  | stored _ _ _ => rfl
  | clash _ _ _ => rfl

/-- If the caller looks a name up in the catalog, they say that the source is of the unprojected
kind exactly if it is. -/
def KindAgrees (cat : Cat) (t : Call) : Prop :=
  t.lookup = true → ∀ k e, (k, e) ∈ cat → e.name = t.name →
    (e.type = unprojected ↔ t.type = some unprojected)

theorem found_kind {cat : Cat} {t : Call} {e : Entry} {id : Option Int} (hk : KindAgrees cat t)
    (h : Found cat t e id) : e.type = unprojected ↔ t.type = some unprojected := by
  have hu : (userEntry t).type = unprojected ↔ t.type = some unprojected := by
    unfold userEntry
    simp only
    cases ht : t.type with
    | none => simp only [Option.getD_none]; decide
    | some ty => simp
  cases h with
  | user _ _ => exact hu
  | jpl _ _ h1 _ h2 =>
    rw [h1]
    rcases h2 with h2 | h2 <;> rw [h2] <;> decide
  | stored h1 h2 h3 =>
    rename_i k x
    show x.type = unprojected ↔ _
    by_cases hl : t.lookup = true
    · exact hk hl _ _ h1 h2
    · rw [h3 (by simpa using hl)]
      simp
  | clash _ _ _ => exact hu

end Verif.Phase
