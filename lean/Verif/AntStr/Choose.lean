import Verif.AntStr.Props

/-!
What strings that name single antennas choose, and what a selection keeps.
-/
namespace Verif.AntStr
open Verif.Pol (Str polstr2num)

/-- No pair twice, no pair in both orders, and the antennas are those of the pairs. -/
structure Sensible (d : Data) : Prop where
  nodup : d.pairs.Nodup
  oneway : ∀ i j, (i, j) ∈ d.pairs → (j, i) ∈ d.pairs → i = j
  ants : ∀ p ∈ d.pairs, p.1 ∈ d.ants ∧ p.2 ∈ d.ants

/-- An antenna is one of the two of a pair. -/
def Has (p : Nat × Nat) (a : Nat) : Prop := p.1 = a ∨ p.2 = a

instance (p : Nat × Nat) (a : Nat) : Decidable (Has p a) := inferInstanceAs (Decidable (_ ∨ _))

/-- An antenna by itself, asked for or excluded. -/
def antenna (neg : Bool) (a : Nat) : Item := .bare (.ant ⟨neg, a, none⟩)

theorem bare_says (d : Data) (hs : Sensible d) (neg last : Bool) (a : Nat) (p : Nat × Nat) :
    (∀ b ∈ (antenna neg a).says d p last, b = !neg) ∧ ((antenna neg a).says d p last ≠ [] ↔ p ∈ d.pairs ∧ Has p a) := by
  have he : (antenna neg a).says d p last = (d.ants.map (fun j => act ⟨neg, a, none⟩ ⟨false, j, none⟩)).filterMap (Act.says d p) := rfl
  have hv : ∀ j, Act.says d p (act ⟨neg, a, none⟩ ⟨false, j, none⟩) = if Means d a j p then some (!neg) else none := by
    intro j
    unfold Act.says
    by_cases hm : Means d a j p
    · rw [if_pos hm, if_pos (by exact hm)]
      cases neg <;> rfl
    · rw [if_neg hm, if_neg (by exact hm)]
  constructor
  · intro b hb
    rw [he, List.mem_filterMap] at hb
    obtain ⟨x, hx, hb⟩ := hb
    obtain ⟨j, _, rfl⟩ := List.mem_map.1 hx
    rw [hv] at hb
    by_cases hm : Means d a j p
    · rw [if_pos hm] at hb
      exact (Option.some.inj hb).symm
    · rw [if_neg hm] at hb
      cases hb
  · rw [he, ne_eq, List.filterMap_eq_nil_iff]
    constructor
    · intro h
      by_contra hc
      apply h
      intro x hx
      obtain ⟨j, _, rfl⟩ := List.mem_map.1 hx
      rw [hv, if_neg]
      rintro ⟨hp, rfl | ⟨rfl, _⟩⟩
      · exact hc ⟨hp, Or.inl rfl⟩
      · exact hc ⟨hp, Or.inr rfl⟩
    · rintro ⟨hp, hh⟩ h
      rcases p with ⟨i, j⟩
      rcases hh with h1 | h1
      · have h1' : i = a := h1
        subst h1'
        have := h _ (List.mem_map.2 ⟨j, (hs.ants _ hp).2, rfl⟩)
        rw [hv, if_pos ⟨hp, Or.inl rfl⟩] at this
        cases this
      · have h1' : j = a := h1
        subst h1'
        have := h _ (List.mem_map.2 ⟨i, (hs.ants _ hp).1, rfl⟩)
        rw [hv, if_pos] at this
        · cases this
        · refine ⟨hp, ?_⟩
          by_cases hij : i = j
          · subst hij
            exact Or.inl rfl
          · exact Or.inr ⟨rfl, fun h => hij (hs.oneway _ _ hp h)⟩

/-- The antennas asked for. -/
theorem said_ants (d : Data) (hs : Sensible d) (p : Nat × Nat) (neg : Bool) : ∀ as : List Nat,
    (∀ b ∈ said d p (as.map (antenna neg)), b = !neg) ∧ (said d p (as.map (antenna neg)) ≠ [] ↔ p ∈ d.pairs ∧ ∃ a ∈ as, Has p a) := by
  intro as
  induction as with
  | nil => exact ⟨fun b hb => absurd hb List.not_mem_nil, by simp [said]⟩
  | cons a as ih =>
    rw [List.map_cons, said]
    have hb := bare_says d hs neg ((as.map (antenna neg)).isEmpty) a p
    refine ⟨?_, ?_⟩
    · intro b h
      rcases List.mem_append.1 h with h | h
      · exact hb.1 b h
      · exact ih.1 b h
    · rw [ne_eq, List.append_eq_nil_iff, not_and_or]
      rw [show (¬ _ = [] ↔ _) from hb.2, show (¬ _ = [] ↔ _) from ih.2]
      constructor
      · rintro (⟨h1, h2⟩ | ⟨h1, x, hx, h2⟩)
        · exact ⟨h1, a, List.mem_cons_self, h2⟩
        · exact ⟨h1, x, List.mem_cons_of_mem _ hx, h2⟩
      · rintro ⟨h1, x, hx, h2⟩
        rcases List.mem_cons.1 hx with rfl | hx
        · exact Or.inl ⟨h1, h2⟩
        · exact Or.inr ⟨h1, x, hx, h2⟩

theorem getLast_const {l : List Bool} {v : Bool} (h : ∀ b ∈ l, b = v) : l.getLast? = if l = [] then none else some v := by
  by_cases hl : l = []
  · rw [if_pos hl, hl]
    rfl
  · rw [if_neg hl, List.getLast?_eq_some_getLast hl, h _ (List.getLast_mem hl)]

/-- Antennas without a minus sign, with commas between: the pairs that have one of them. -/
theorem asked (d : Data) (hs : Sensible d) (as : List Nat) (p : Nat × Nat) :
    Wanted d (as.map (antenna false)) p ↔ p ∈ d.pairs ∧ ∃ a ∈ as, Has p a := by
  have hp : prefixed (as.map (antenna false)) = as.map (antenna false) := by cases as <;> rfl
  have := said_ants d hs p false as
  rw [Wanted, hp, getLast_const this.1, ← this.2]
  by_cases hl : said d p (as.map (antenna false)) = []
  · simp [hl]
  · simp [hl]

/-- What `all`, `auto` or `cross` stand for. -/
def Base (t : Item) (p : Nat × Nat) : Prop :=
  match t with
  | .all => True
  | .auto => p.1 = p.2
  | .cross => p.1 ≠ p.2
  | _ => False

instance (t : Item) (p : Nat × Nat) : Decidable (Base t p) := by
  unfold Base
  split <;> infer_instance

/-- `all`, `auto` or `cross`, followed by antennas with minus signs: the pairs it stands for that have none of the antennas. -/
theorem excluded (d : Data) (hs : Sensible d) (t : Item) (ht : t = .all ∨ t = .auto ∨ t = .cross) (as : List Nat) (ha : as ≠ []) (p : Nat × Nat) :
    Wanted d (t :: as.map (antenna true)) p ↔ p ∈ d.pairs ∧ Base t p ∧ ∀ a ∈ as, ¬ Has p a := by
  have hp : prefixed (t :: as.map (antenna true)) = t :: as.map (antenna true) := by
    rcases ht with rfl | rfl | rfl <;> rfl
  have hx := said_ants d hs p true as
  have hne : (as.map (antenna true)).isEmpty = false := by
    cases as with
    | nil => exact absurd rfl ha
    | cons => rfl
  have hb : t.says d p false = if p ∈ d.pairs ∧ Base t p then [true] else [] := by
    rcases ht with rfl | rfl | rfl
    · exact if_congr ⟨fun h => ⟨h.1, trivial⟩, fun h => ⟨h.1, rfl⟩⟩ rfl rfl
    · exact if_congr Iff.rfl rfl rfl
    · exact if_congr Iff.rfl rfl rfl
  rw [Wanted, hp, said, hne, hb, List.getLast?_append, getLast_const hx.1]
  by_cases hl : said d p (as.map (antenna true)) = []
  · rw [if_pos hl]
    have hno : ¬ (p ∈ d.pairs ∧ ∃ a ∈ as, Has p a) := fun h => hx.2.2 h hl
    by_cases hc : p ∈ d.pairs ∧ Base t p
    · rw [if_pos hc]
      simp only [List.getLast?_singleton, Option.none_or, true_iff]
      exact ⟨hc.1, hc.2, fun a ha hh => hno ⟨hc.1, a, ha, hh⟩⟩
    · rw [if_neg hc]
      simp only [List.getLast?_nil, Option.none_or, reduceCtorEq, false_iff]
      rintro ⟨h1, h2, _⟩
      exact hc ⟨h1, h2⟩
  · rw [if_neg hl]
    simp only [Option.some_or, Option.some.injEq, Bool.not_true, Bool.false_eq_true, false_iff]
    rintro ⟨_, _, h3⟩
    obtain ⟨_, a, ha, hh⟩ := hx.2.1 hl
    exact h3 a ha hh

/-- `all`, `auto` or `cross`, followed by two antennas without feeds: the pair they mean is excluded if there is a minus sign before either. -/
theorem pair_excluded (d : Data) (t : Item) (ht : t = .all ∨ t = .auto ∨ t = .cross) (a b : Nat) (na nb : Bool) (p : Nat × Nat) :
    Wanted d [t, .pair (.ant ⟨na, a, none⟩) (.ant ⟨nb, b, none⟩)] p ↔
      p ∈ d.pairs ∧ if Means d a b p then na = false ∧ nb = false else Base t p := by
  have hp : prefixed [t, .pair (.ant ⟨na, a, none⟩) (.ant ⟨nb, b, none⟩)] = [t, .pair (.ant ⟨na, a, none⟩) (.ant ⟨nb, b, none⟩)] := by
    rcases ht with rfl | rfl | rfl <;> rfl
  have hb : t.says d p false = if p ∈ d.pairs ∧ Base t p then [true] else [] := by
    rcases ht with rfl | rfl | rfl
    · exact if_congr ⟨fun h => ⟨h.1, trivial⟩, fun h => ⟨h.1, rfl⟩⟩ rfl rfl
    · exact if_congr Iff.rfl rfl rfl
    · exact if_congr Iff.rfl rfl rfl
  have hq : Item.says d p true (.pair (.ant ⟨na, a, none⟩) (.ant ⟨nb, b, none⟩)) = if Means d a b p then [!na && !nb] else [] := by
    show ([act ⟨na, a, none⟩ ⟨nb, b, none⟩].filterMap (Act.says d p)) = _
    by_cases hm : Means d a b p
    · rw [if_pos hm]
      cases na <;> cases nb <;> simp [act, Act.says, polNames, hm]
    · rw [if_neg hm]
      simp [act, Act.says, hm]
  have hs : said d p [t, .pair (.ant ⟨na, a, none⟩) (.ant ⟨nb, b, none⟩)] =
      (if p ∈ d.pairs ∧ Base t p then [true] else []) ++ ((if Means d a b p then [!na && !nb] else []) ++ []) := by
    rw [← hb, ← hq]; rfl
  rw [Wanted, hp, hs, List.append_nil]
  by_cases hm : Means d a b p
  · rw [if_pos hm, if_pos hm, List.getLast?_append]
    cases na <;> cases nb <;> simp [hm.1]
  · rw [if_neg hm, if_neg hm, List.append_nil]
    by_cases hc : p ∈ d.pairs ∧ Base t p
    · rw [if_pos hc]; simp [hc.1, hc.2]
    · rw [if_neg hc]; simpa using fun h1 h2 => hc ⟨h1, h2⟩

/-- A string that begins with a minus sign stands for `all` and what follows. -/
theorem minus_all (d : Data) (as : List Nat) (p : Nat × Nat) (ha : as ≠ []) :
    Wanted d (as.map (antenna true)) p ↔ Wanted d (.all :: as.map (antenna true)) p := by
  cases as with
  | nil => exact absurd rfl ha
  | cons a as => exact Iff.rfl

/-- What a selection keeps: the pairs that are asked for, if there is any. -/
theorem kept (d : Data) (hd : d.pairs.Nodup) (ts : List Item) (l : List (Nat × Nat)) (h : selected d ts = .ok (some l)) :
    ((∃ p, Wanted d ts p) → ts ≠ [.all] → ∀ p, p ∈ l ↔ Wanted d ts p) ∧ (((∀ p, ¬ Wanted d ts p) ∨ ts = [.all]) → l = d.pairs) := by
  unfold selected at h
  cases hp : parse d ts with
  | error e => rw [hp] at h; cases h
  | ok x =>
    rcases x with ⟨r, ps⟩
    obtain ⟨h1, h2⟩ := last_wins d hd ts r ps hp
    rw [hp] at h
    rcases r with _ | _ | ⟨q, r⟩
    · cases h
      refine ⟨?_, fun _ => rfl⟩
      rintro ⟨p, hw⟩ ha
      rcases h2.1 rfl with h | ⟨h, _⟩
      · exact absurd h ha
      · exact absurd hw (h p)
    · cases h
    · cases h
      refine ⟨fun _ _ => (h1 _ rfl).2.1, ?_⟩
      rintro (h | h)
      · exact absurd (((h1 _ rfl).2.1 q).1 List.mem_cons_self) (h q)
      · exact absurd (h2.2 (Or.inl h)) (by simp)

/-- No feeds, and no list in parentheses by itself. -/
def Item.Plain : Item → Prop
  | .bare (.ant a) => a.feed = none
  | .bare (.list _) => False
  | .pair s t => (∀ a ∈ s.ants, a.feed = none) ∧ ∀ a ∈ t.ants, a.feed = none
  | _ => True

theorem steps_total (d : Data) : ∀ (as : List Act) (s : St), (∀ a ∈ as, a.names = none) → ∃ s', as.foldlM (step d) s = .ok s' := by
  intro as
  induction as with
  | nil => exact fun s _ => ⟨s, rfl⟩
  | cons a as ih =>
    intro s h
    have ha := h a List.mem_cons_self
    have : ∃ s1, step d s a = .ok s1 := by
      unfold step
      rw [ha]
      cases orient d a.i a.j with
      | none => exact ⟨_, rfl⟩
      | some q =>
        dsimp only
        by_cases hc : a.incl = true
        · rw [if_pos hc]
          exact ⟨_, rfl⟩
        · rw [if_neg hc]
          exact ⟨_, rfl⟩
    obtain ⟨s1, h1⟩ := this
    obtain ⟨s', h'⟩ := ih s1 (fun b hb => h b (List.mem_cons_of_mem _ hb))
    refine ⟨s', ?_⟩
    rw [List.foldlM_cons, h1]
    exact h'

theorem item_total (d : Data) (last : Bool) (s : St) (t : Item) (h : t.Plain) : ∃ s', item d last s t = .ok s' := by
  cases t with
  | all => exact ⟨_, rfl⟩
  | auto => exact ⟨_, rfl⟩
  | cross => exact ⟨_, rfl⟩
  | stokes n => exact ⟨_, rfl⟩
  | bare a =>
    cases a with
    | list as => exact h.elim
    | ant a =>
      have h : a.feed = none := h
      apply steps_total d
      intro x hx
      obtain ⟨j, _, rfl⟩ := List.mem_map.1 hx
      simp only [act, h]
      rfl
  | pair a b =>
    obtain ⟨h1, h2⟩ := h
    apply steps_total d
    intro x hx
    obtain ⟨i, hi, hx⟩ := List.mem_flatMap.1 hx
    obtain ⟨j, hj, rfl⟩ := List.mem_map.1 hx
    simp only [act, h1 i hi, h2 j hj]
    rfl

theorem run_total (d : Data) : ∀ (ts : List Item) (s : St), (∀ t ∈ ts, t.Plain) → ∃ s', run d s ts = .ok s' := by
  intro ts
  induction ts with
  | nil => exact fun s _ => ⟨s, rfl⟩
  | cons t ts ih =>
    intro s h
    obtain ⟨s1, h1⟩ := item_total d ts.isEmpty s t (h t List.mem_cons_self)
    obtain ⟨s', h'⟩ := ih s1 (fun b hb => h b (List.mem_cons_of_mem _ hb))
    exact ⟨s', by rw [run, h1]; exact h'⟩

/-- A selection by a string without feeds, and without a list in parentheses by itself, is refused exactly if the string is only `auto` or only `cross` and the
object has no such pair. -/
theorem refused_iff (d : Data) (hd : d.pairs.Nodup) (ts : List Item) (h : ∀ t ∈ ts, t.Plain) :
    (∃ r, selected d ts = .ok r) ∧
    (selected d ts = .ok none ↔ (ts = [.auto] ∧ ∀ p ∈ d.pairs, p.1 ≠ p.2) ∨ (ts = [.cross] ∧ ∀ p ∈ d.pairs, p.1 = p.2)) := by
  have hpl : ∀ t ∈ prefixed ts, t.Plain := by
    intro t ht
    unfold prefixed at ht
    split at ht
    · split at ht
      · rcases List.mem_cons.1 ht with rfl | ht
        · exact trivial
        · exact h t ht
      · exact h t ht
    · cases ht
  obtain ⟨s, hs⟩ := run_total d (prefixed ts) ⟨[], []⟩ hpl
  obtain ⟨x, hx⟩ : ∃ x, parse d ts = .ok x := by
    unfold parse
    rw [hs]
    exact ⟨_, rfl⟩
  rcases x with ⟨r, ps⟩
  obtain ⟨h1, h2⟩ := last_wins d hd ts r ps hx
  have wa : ∀ p, Wanted d [.auto] p ↔ p ∈ d.pairs ∧ p.1 = p.2 := by
    intro p
    have : said d p (prefixed [.auto]) = (if p ∈ d.pairs ∧ p.1 = p.2 then [true] else []) ++ [] := rfl
    rw [Wanted, this, List.append_nil]
    by_cases hc : p ∈ d.pairs ∧ p.1 = p.2
    · simp [hc]
    · simp [hc]
  have wc : ∀ p, Wanted d [.cross] p ↔ p ∈ d.pairs ∧ p.1 ≠ p.2 := by
    intro p
    have : said d p (prefixed [.cross]) = (if p ∈ d.pairs ∧ p.1 ≠ p.2 then [true] else []) ++ [] := rfl
    rw [Wanted, this, List.append_nil]
    by_cases hc : p ∈ d.pairs ∧ p.1 ≠ p.2
    · simp [hc]
    · rw [if_neg hc]
      simp only [List.getLast?_nil, reduceCtorEq, false_iff]
      exact hc
  unfold selected
  rw [hx]
  rcases r with _ | _ | ⟨q, r⟩
  · refine ⟨⟨_, rfl⟩, ?_⟩
    dsimp only
    simp only [Except.ok.injEq, reduceCtorEq, false_iff]
    rcases h2.1 rfl with rfl | ⟨_, h3, h4⟩
    · simp
    · rintro (⟨h, _⟩ | ⟨h, _⟩)
      · exact h3 h
      · exact h4 h
  · refine ⟨⟨_, rfl⟩, ?_⟩
    dsimp only
    simp only [true_iff]
    have hno : ∀ p, ¬ Wanted d ts p := fun p hp => absurd (((h1 _ rfl).2.1 p).2 hp) List.not_mem_nil
    have : ¬ (ts = [.all] ∨ ((∀ p, ¬ Wanted d ts p) ∧ ts ≠ [.auto] ∧ ts ≠ [.cross])) := fun h => nomatch h2.2 h
    by_cases ha : ts = [.auto]
    · subst ha
      exact Or.inl ⟨rfl, fun p hp he => hno p ((wa p).2 ⟨hp, he⟩)⟩
    · by_cases hc : ts = [.cross]
      · subst hc
        exact Or.inr ⟨rfl, fun p hp => by_contra fun he => hno p ((wc p).2 ⟨hp, he⟩)⟩
      · exact absurd (Or.inr ⟨hno, ha, hc⟩) this
  · refine ⟨⟨_, rfl⟩, ?_⟩
    dsimp only
    simp only [Except.ok.injEq, reduceCtorEq, false_iff]
    have hq := ((h1 _ rfl).2.1 q).1 List.mem_cons_self
    rintro (⟨rfl, h0⟩ | ⟨rfl, h0⟩)
    · exact h0 q ((wa q).1 hq).1 ((wa q).1 hq).2
    · exact ((wc q).1 hq).2 (h0 q ((wc q).1 hq).1)

/-- An object with three antennas, all pairs in one order. -/
def sample : Data := ⟨[0, 1, 2], [(0, 0), (0, 1), (0, 2), (1, 1), (1, 2), (2, 2)], [['x', 'x'], ['y', 'y']], none⟩

theorem sample_sensible : Sensible sample :=
  ⟨by decide, by
    intro i j h1 h2
    simp only [sample, List.mem_cons, Prod.mk.injEq, List.not_mem_nil, or_false] at h1 h2
    omega, by decide⟩

example : parse sample [antenna false 1, .auto, .pair (.ant ⟨true, 2, none⟩) (.ant ⟨false, 2, none⟩)] =
    .ok (some [(0, 1), (1, 1), (1, 2), (0, 0)], none) := by decide +kernel
example : selected sample [.cross, antenna true 2] = .ok (some [(0, 1)]) := by decide +kernel
example : selected sample [antenna true 2] = .ok (some [(0, 0), (0, 1), (1, 1)]) := by decide +kernel
example : selected ⟨[0, 1], [(0, 1)], [['x', 'x']], none⟩ [.auto] = .ok none := by decide +kernel

/-- Every pair but (0, 1). -/
example : Wanted sample [.all, .pair (.ant ⟨false, 0, none⟩) (.ant ⟨true, 1, none⟩)] (0, 2) ∧
    ¬ Wanted sample [.all, .pair (.ant ⟨false, 0, none⟩) (.ant ⟨true, 1, none⟩)] (0, 1) := by
  rw [pair_excluded sample .all (Or.inl rfl), pair_excluded sample .all (Or.inl rfl)]
  decide

/-- A string that excludes what it asks for keeps the whole object: antenna 1 without antenna 1, or all pairs without any antenna. -/
theorem nothing_wanted_counterexample :
    selected sample [antenna false 1, antenna true 1] = .ok (some sample.pairs) ∧
    selected sample [antenna true 0, antenna true 1, antenna true 2] = .ok (some sample.pairs) ∧
    selected sample [antenna false 7] = .ok (some sample.pairs) ∧
    ∀ p, ¬ Wanted sample [antenna false 7] p := by
  refine ⟨by decide +kernel, by decide +kernel, by decide +kernel, fun p hp => ?_⟩
  obtain ⟨h1, a, h2, h3⟩ := (asked sample sample_sensible [7] p).1 hp
  rw [List.mem_singleton] at h2
  subst h2
  simp only [sample, List.mem_cons, List.not_mem_nil, or_false] at h1
  rcases h1 with rfl | rfl | rfl | rfl | rfl | rfl <;> revert h3 <;> decide

/-- `all` at the end of a longer string asks for nothing. -/
theorem all_last_counterexample : selected sample [.pair (.ant ⟨false, 0, none⟩) (.ant ⟨false, 1, none⟩), .all] = .ok (some [(0, 1)]) := by
  decide +kernel

/-- Of a list in parentheses by itself only the first antenna is taken, and its minus sign is not seen; a list of one antenna is an error. -/
theorem list_alone_counterexample :
    selected sample [.bare (.list [⟨false, 0, none⟩, ⟨false, 1, none⟩])] = selected sample [antenna false 0] ∧
    selected sample [.bare (.list [⟨true, 0, none⟩, ⟨false, 1, none⟩])] = selected sample [antenna false 0] ∧
    selected sample [.bare (.list [⟨false, 0, none⟩])] = .error .attr := by
  refine ⟨by decide +kernel, by decide +kernel, by decide +kernel⟩

/-- If the object has a pair in both orders, an antenna by itself chooses only the order in which it comes first. -/
theorem both_orders_counterexample :
    selected ⟨[0, 1], [(0, 1), (1, 0)], [['x', 'x']], none⟩ [antenna false 0] = .ok (some [(0, 1)]) := by
  decide +kernel

end Verif.AntStr
