import Verif.CalSelect.Cut
import Verif.TimeSel.Bound

/-!
What `UVCal.select` keeps. Which antennas, times, channels, windows and Jones components are asked for is written here without the lists of positions.
-/
namespace Verif.CalSelect
open Verif.Np Verif.FreqSort Verif.CalAdd
open Verif.Pol (Str)

variable {K R V Q : Type} [Field K] [LinearOrder K]

/-- The telescope has an antenna of this name, the first of that name with this number. -/
def Named (c : Ctx K R) (s : Str) (a : Int) : Prop := ∃ p, c.antNames.find? (fun p => p.1 == s) = some p ∧ p.2 = a

/-- An antenna that is asked for, if antennas are. -/
def AntOk (c : Ctx K R) (q : Req K) (a : Int) : Prop :=
  (∀ ns, q.antNums = some ns → a ∈ ns) ∧ ∀ ss, q.antNames = some ss → ∃ s ∈ ss, Named c s a

/-- What is compared with the times asked for: ranges of time and of sidereal time if the object has ranges, otherwise the times and sidereal times. -/
def seenAxis (c : Ctx K R) (o : Obj K R V Q) : TimeSel.Axis K where
  times := o.keys
  timeRanges := if o.ranged = true then some o.timeRanges else none
  lsts := o.times.map (fun r => c.lst r.rest)
  lstRanges := if o.ranged = true then some (o.times.map (fun r => (c.lst r.rest, c.lstStop r.rest))) else none

theorem axis_eq (c : Ctx K R) (o : Obj K R V Q) : axis c o = seenAxis c o := by
  unfold axis seenAxis
  cases o.ranged <;> rfl

/-- A time that is asked for, if times are, and whose phase center is asked for, if centers are. -/
def TimeOk (c : Ctx K R) (o : Obj K R V Q) (q : Req K) (i : Nat) (r : Row K R) : Prop :=
  (∀ l, TimeSel.selectTimes c.P (seenAxis c o) c.timeTols c.lstTols q.times = .ok (some l) → i ∈ l) ∧
  (∀ ids, q.pcIds = some ids → ∃ x ∈ ids, r.center = some x) ∧
  (∀ ss, q.catNames = some ss → ∃ cat, c.catalog = some cat ∧ ∃ p ∈ cat, p.2 ∈ ss ∧ r.center = some p.1)

/-- A Jones component that is asked for, by number or by name. -/
def Asked (c : Ctx K R) (q : Req K) (n : Int) : Prop :=
  ∃ js, q.jones = some js ∧ (JReq.num n ∈ js ∨ ∃ s, JReq.str s ∈ js ∧ c.jonesNum s = some n)

/-- One of the components asked for is not on the Jones axis, so that it can only be that of a window. -/
def ByWindow (c : Ctx K R) (o : Obj K R V Q) (q : Req K) : Prop := ∃ n, Asked c q n ∧ n ∉ o.jones

/-- The component of a window is asked for. -/
def WinAsked (c : Ctx K R) (o : Obj K R V Q) (q : Req K) (k : Nat) : Prop :=
  ∃ fj n, o.flexJones = some fj ∧ fj[k]? = some n ∧ Asked c q n ∧ n ∉ o.jones

/-- Windows can be chosen: with a single window the request is ignored. -/
def SpwsAsked (o : Obj K R V Q) (q : Req K) (ws : List Int) : Prop := q.spws = some ws ∧ o.spws.length ≠ 1

/-- Something is asked of the channels. -/
def ChansAsked (o : Obj K R V Q) (q : Req K) : Prop := q.chans ≠ none ∨ q.freqs ≠ none ∨ ∃ ws, SpwsAsked o q ws

/-- A channel that is asked for by its position, its frequency or its window. -/
def ChanOk (o : Obj K R V Q) (q : Req K) (i : Nat) : Prop :=
  (∃ ch, q.chans = some ch ∧ (i : Int) ∈ ch) ∨ (∃ fs, q.freqs = some fs ∧ ∃ f ∈ fs, o.freq[i]? = some f) ∨
  ∃ ws, SpwsAsked o q ws ∧ ∃ w ∈ ws, o.ids[i]? = some w

/-- Positions in rising order, exactly those below `n` with a property. -/
structure Picks (l : List Nat) (n : Nat) (P : Nat → Prop) : Prop where
  sorted : l.Pairwise (· < ·)
  mem : ∀ i, i ∈ l ↔ i < n ∧ P i

theorem Picks.lt {l : List Nat} {n : Nat} {P : Nat → Prop} (h : Picks l n P) : ∀ i ∈ l, i < n := fun i hi => ((h.mem i).1 hi).1

/-- The positions kept on an axis. -/
def eff (n : Nat) (l : Option (List Nat)) : List Nat := l.getD (List.range n)

theorem picks_range (n : Nat) {P : Nat → Prop} (h : ∀ i < n, P i) : Picks (List.range n) n P :=
  ⟨List.pairwise_lt_range, fun i => by
    rw [List.mem_range]
    exact ⟨fun hi => ⟨hi, h i hi⟩, fun h => h.1⟩⟩

theorem picks_where {α : Type} (p : α → Bool) (xs : List α) {P : Nat → Prop} (h : ∀ i x, xs[i]? = some x → (p x = true ↔ P i)) :
    Picks (whereIdx p xs) xs.length P := by
  refine ⟨whereIdx_sorted p xs, fun i => ?_⟩
  rw [mem_whereIdx]
  constructor
  · rintro ⟨x, hx, hp⟩
    exact ⟨(List.getElem?_eq_some_iff.1 hx).1, (h i x hx).1 hp⟩
  · rintro ⟨hi, hp⟩
    exact ⟨xs[i], List.getElem?_eq_getElem hi, (h i _ (List.getElem?_eq_getElem hi)).2 hp⟩

theorem mapM_ok {ε β γ : Type} {f : β → Except ε γ} : ∀ {l : List β} {r : List γ}, l.mapM f = .ok r →
    (∀ y, y ∈ r ↔ ∃ x ∈ l, f x = .ok y) ∧ ∀ x ∈ l, ∃ y, f x = .ok y := by
  intro l
  induction l with
  | nil =>
    intro r h
    cases h
    simp
  | cons a l ih =>
    intro r h
    rw [List.mapM_cons] at h
    cases ha : f a with
    | error e => rw [ha] at h; cases h
    | ok b =>
      rw [ha] at h
      cases hl : l.mapM f with
      | error e => rw [hl] at h; cases h
      | ok bs =>
        rw [hl] at h
        cases h
        obtain ⟨h1, h2⟩ := ih hl
        refine ⟨fun y => ?_, fun x hx => ?_⟩
        · rw [List.mem_cons, h1 y]
          constructor
          · rintro (rfl | ⟨x, hx, hy⟩)
            · exact ⟨a, List.mem_cons_self, ha⟩
            · exact ⟨x, List.mem_cons_of_mem _ hx, hy⟩
          · rintro ⟨x, hx, hy⟩
            rcases List.mem_cons.1 hx with rfl | hx
            · rw [ha] at hy
              exact Or.inl (Except.ok.inj hy).symm
            · exact Or.inr ⟨x, hx, hy⟩
        · rcases List.mem_cons.1 hx with rfl | hx
          · exact ⟨b, ha⟩
          · exact h2 x hx

/-! ### Antennas -/

theorem ants_spec {c : Ctx K R} {o : Obj K R V Q} {q : Req K} {nums : Option (List Int)} {a : Option (List Nat)} (h1 : antReq c q = .ok nums)
    (h2 : antStage o nums = .ok a) : Picks (eff o.ants.length a) o.ants.length (fun i => ∃ x, o.ants[i]? = some x ∧ AntOk c q x) := by
  unfold antReq at h1
  have stage : ∀ l, nums = some l → (∀ x, x ∈ l ↔ AntOk c q x) → Picks (eff o.ants.length a) o.ants.length (fun i => ∃ x, o.ants[i]? = some x ∧ AntOk c q x) := by
    rintro l rfl hl
    unfold antStage at h2
    dsimp only at h2
    split at h2
    · cases h2
      apply picks_where
      intro i x hx
      rw [List.contains_iff_mem, hl x]
      constructor
      · exact fun h => ⟨x, hx, h⟩
      · rintro ⟨y, hy, h⟩
        rw [hx] at hy
        exact Option.some.inj hy ▸ h
    · cases h2
  cases hn : q.antNames with
  | none =>
    rw [hn] at h1
    have h1 : nums = q.antNums := by
      cases hq : q.antNums with
      | none => rw [hq] at h1; cases h1; rfl
      | some l => rw [hq] at h1; cases h1; rfl
    cases hq : q.antNums with
    | none =>
      rw [hq] at h1
      subst h1
      cases h2
      apply picks_range
      intro i hi
      refine ⟨o.ants[i], List.getElem?_eq_getElem hi, ?_, ?_⟩
      · intro ns hns
        rw [hq] at hns
        cases hns
      · intro ss hss
        rw [hn] at hss
        cases hss
    | some l =>
      refine stage l (h1.trans hq) (fun x => ?_)
      constructor
      · intro hx
        refine ⟨fun ns hns => ?_, fun ss hss => ?_⟩
        · rw [hq] at hns
          exact Option.some.inj hns ▸ hx
        · rw [hn] at hss
          cases hss
      · exact fun h => h.1 l hq
  | some ss =>
    rw [hn] at h1
    cases hq : q.antNums with
    | some l => rw [hq] at h1; cases h1
    | none =>
      rw [hq] at h1
      dsimp only at h1
      cases hm : ss.mapM (antNum c) with
      | error e => rw [hm] at h1; cases h1
      | ok l =>
        rw [hm] at h1
        have h1 : nums = some l := by cases h1; rfl
        refine stage l h1 (fun x => ?_)
        rw [(mapM_ok hm).1 x]
        have key : ∀ s, antNum c s = .ok x ↔ Named c s x := by
          intro s
          unfold antNum Named
          cases c.antNames.find? (fun p => p.1 == s) with
          | none => simp
          | some p => simp
        constructor
        · rintro ⟨s, hs, h⟩
          refine ⟨fun ns hns => ?_, fun ss' hss => ?_⟩
          · rw [hq] at hns
            cases hns
          · rw [hn] at hss
            obtain rfl := Option.some.inj hss
            exact ⟨s, hs, (key s).1 h⟩
        · intro h
          obtain ⟨s, hs, h⟩ := h.2 ss hn
          exact ⟨s, hs, (key s).2 h⟩

/-! ### Times -/

theorem mem_meet {α : Type} [LinearOrder α] {l : List α} {m : Option (List α)} {x : α} : x ∈ meet l m ↔ x ∈ l ∧ ∀ m', m = some m' → x ∈ m' := by
  unfold meet
  cases m with
  | none => simp [mem_unique]
  | some m => simp [mem_unique, List.mem_filter]

theorem meet_sorted {α : Type} [LinearOrder α] (l : List α) (m : Option (List α)) : (meet l m).Pairwise (· < ·) := by
  unfold meet
  cases m with
  | none => exact unique_sorted l
  | some m => exact List.Pairwise.filter _ (unique_sorted l)

theorem mem_union {α : Type} [LinearOrder α] {l : List α} {m : Option (List α)} {x : α} : x ∈ union l m ↔ x ∈ l ∨ ∃ m', m = some m' ∧ x ∈ m' := by
  unfold union
  cases m with
  | none => simp [mem_unique]
  | some m => simp [mem_unique]

/-- The ids of phase centers that are asked for. -/
theorem pcReq_spec {c : Ctx K R} {o : Obj K R V Q} {q : Req K} {ids : Option (List Int)} (h : pcReq c o q = .ok ids) (r : Row K R) :
    (∀ l, ids = some l → ∃ x ∈ l, r.center = some x) ↔
      ((∀ l, q.pcIds = some l → ∃ x ∈ l, r.center = some x) ∧
       ∀ ss, q.catNames = some ss → ∃ cat, c.catalog = some cat ∧ ∃ p ∈ cat, p.2 ∈ ss ∧ r.center = some p.1) := by
  unfold pcReq at h
  cases hp : q.pcIds with
  | none =>
    cases hc : q.catNames with
    | none =>
      rw [hp, hc] at h
      cases h
      simp
    | some ss =>
      rw [hp, hc] at h
      dsimp only at h
      cases hcat : c.catalog with
      | none => rw [hcat] at h; cases h
      | some cat =>
        rw [hcat] at h
        dsimp only at h
        split at h
        · cases h
          simp only [Option.some.injEq, reduceCtorEq, false_implies, implies_true, true_and, forall_eq', List.mem_map, List.mem_filter, List.contains_iff_mem]
          constructor
          · rintro ⟨x, ⟨p, ⟨h1, h2⟩, rfl⟩, h3⟩
            exact ⟨cat, rfl, p, h1, h2, h3⟩
          · rintro ⟨_, rfl, p, h1, h2, h3⟩
            exact ⟨p.1, ⟨p, ⟨h1, h2⟩, rfl⟩, h3⟩
        · cases h
  | some l =>
    cases hc : q.catNames with
    | some ss => rw [hp, hc] at h; cases h
    | none =>
      rw [hp, hc] at h
      dsimp only at h
      cases hcat : c.catalog with
      | none => rw [hcat] at h; cases h
      | some cat =>
        rw [hcat] at h
        dsimp only at h
        split at h
        · cases h
          simp
        · cases h

theorem axis_len (c : Ctx K R) (o : Obj K R V Q) : (axis c o).Len o.times.length := by
  unfold axis
  split
  · exact ⟨List.length_map _, List.length_map _, fun r h => by cases h; exact List.length_map _, fun r h => by cases h; exact List.length_map _⟩
  · exact ⟨List.length_map _, List.length_map _, (fun r h => nomatch h), (fun r h => nomatch h)⟩

theorem times_spec {c : Ctx K R} {o : Obj K R V Q} {q : Req K} {t : Option (List Nat)} (h : timeStage c o q = .ok t) :
    Picks (eff o.times.length t) o.times.length (fun i => ∃ r, o.times[i]? = some r ∧ TimeOk c o q i r) := by
  unfold timeStage at h
  cases hp : pcReq c o q with
  | error e => rw [hp] at h; cases h
  | ok ids =>
    rw [hp] at h
    dsimp only at h
    cases hs : TimeSel.selectTimes c.P (axis c o) c.timeTols c.lstTols q.times with
    | error e => rw [hs] at h; cases h
    | ok x =>
      rw [hs] at h
      cases h
      have hpc := pcReq_spec hp
      have hok : ∀ i r, TimeOk c o q i r ↔ (∀ l, x = some l → i ∈ l) ∧ ∀ l, ids = some l → ∃ x ∈ l, r.center = some x := by
        intro i r
        unfold TimeOk
        rw [hpc r, ← axis_eq, hs]
        simp only [Except.ok.injEq]
      unfold pcStage
      cases hids : ids with
      | none =>
        cases x with
        | none =>
          apply picks_range
          intro i hi
          exact ⟨o.times[i], List.getElem?_eq_getElem hi, (hok i _).2 ⟨(fun l h => nomatch h), (fun l h => by rw [hids] at h; exact nomatch h)⟩⟩
        | some l =>
          refine ⟨unique_sorted l, fun i => ?_⟩
          show i ∈ unique l ↔ _
          rw [mem_unique]
          constructor
          · intro hi
            have := TimeSel.selectTimes_lt _ _ _ _ _ _ (axis_len c o) hs i hi
            exact ⟨this, o.times[i], List.getElem?_eq_getElem this, (hok i _).2 ⟨fun l' h => Option.some.inj h ▸ hi, fun l h => by rw [hids] at h; cases h⟩⟩
          · rintro ⟨_, r, _, h⟩
            exact ((hok i r).1 h).1 l rfl
      | some ids' =>
        subst hids
        refine ⟨meet_sorted _ _, fun i => ?_⟩
        show i ∈ meet _ _ ↔ _
        rw [mem_meet, mem_whereIdx]
        constructor
        · rintro ⟨⟨r, hr, hc⟩, hm⟩
          refine ⟨(List.getElem?_eq_some_iff.1 hr).1, r, hr, (hok i r).2 ⟨?_, ?_⟩⟩
          · rintro l rfl
            exact mem_unique.1 (hm _ rfl)
          · intro l hl
            obtain rfl := Option.some.inj hl
            cases hcr : r.center with
            | none => rw [hcr] at hc; cases hc
            | some y =>
              rw [hcr] at hc
              exact ⟨y, by simpa using hc, rfl⟩
        · rintro ⟨_, r, hr, h⟩
          obtain ⟨h1, h2⟩ := (hok i r).1 h
          refine ⟨⟨r, hr, ?_⟩, ?_⟩
          · obtain ⟨y, hy, he⟩ := h2 ids' rfl
            rw [he]
            simpa using hy
          · intro m' hm
            obtain ⟨l, rfl, rfl⟩ := Option.map_eq_some_iff.1 hm
            exact mem_unique.2 (h1 l rfl)

/-! ### Channels and windows -/

/-- A channel number that is asked for, whether or not there is such a channel. -/
def NumOk (o : Obj K R V Q) (q : Req K) (x : Int) : Prop :=
  (∃ ch, q.chans = some ch ∧ x ∈ ch) ∨ ∃ i : Nat, x = i ∧ ChanOk o q i

theorem numOk_nat {o : Obj K R V Q} {q : Req K} {i : Nat} : NumOk o q i ↔ ChanOk o q i := by
  constructor
  · rintro (⟨ch, h1, h2⟩ | ⟨j, hj, h⟩)
    · exact Or.inl ⟨ch, h1, h2⟩
    · obtain rfl := Int.ofNat.inj hj
      exact h
  · exact fun h => Or.inr ⟨i, rfl, h⟩

theorem mem_whereInt {α : Type} {p : α → Bool} {xs : List α} {x : Int} :
    x ∈ (whereIdx p xs).map (fun i : Nat => (i : Int)) ↔ ∃ i : Nat, x = i ∧ ∃ y, xs[i]? = some y ∧ p y = true := by
  rw [List.mem_map]
  constructor
  · rintro ⟨i, hi, rfl⟩
    exact ⟨i, rfl, mem_whereIdx.1 hi⟩
  · rintro ⟨i, rfl, h⟩
    exact ⟨i, mem_whereIdx.2 h, rfl⟩

theorem freqStage_some {o : Obj K R V Q} {ch : List Int} {r : Option (List Int)} (h : freqStage o (some ch) = .ok r) : r = some (unique ch) := by
  unfold freqStage at h
  dsimp only at h
  split at h
  · split at h
    · cases h
    · split at h
      · cases h
      · cases h
        rfl
  · cases h
    rfl

/-- Channels of a narrow-band object. -/
theorem chans_spec {o : Obj K R V Q} {q : Req K} {s : Option (List Int) × Option (List Nat)} {f f' : Option (List Int)} (hn : o.wide = false)
    (h1 : spwStage o q = .ok s) (h2 : freqReq o q s.1 = .ok f) (h3 : freqStage o f = .ok f') :
    s.2 = none ∧ (ChansAsked o q → ∃ l, f' = some l ∧ l.Pairwise (· < ·) ∧ ∀ x, x ∈ l ↔ NumOk o q x) ∧ (¬ ChansAsked o q → f' = none) := by
  have hs : s.2 = none ∧ ((q.chans ≠ none ∨ ∃ ws, SpwsAsked o q ws) → ∃ l, s.1 = some l ∧ ∀ x, x ∈ l ↔ (∃ ch, q.chans = some ch ∧ x ∈ ch) ∨
      ∃ i : Nat, x = i ∧ ∃ ws, SpwsAsked o q ws ∧ ∃ w ∈ ws, o.ids[i]? = some w) ∧ ((q.chans = none ∧ ∀ ws, ¬ SpwsAsked o q ws) → s.1 = none) := by
    have plain : s = (q.chans, none) → (∀ ws, ¬ SpwsAsked o q ws) → s.2 = none ∧ ((q.chans ≠ none ∨ ∃ ws, SpwsAsked o q ws) → ∃ l, s.1 = some l ∧ ∀ x, x ∈ l ↔
        (∃ ch, q.chans = some ch ∧ x ∈ ch) ∨ ∃ i : Nat, x = i ∧ ∃ ws, SpwsAsked o q ws ∧ ∃ w ∈ ws, o.ids[i]? = some w) ∧
        ((q.chans = none ∧ ∀ ws, ¬ SpwsAsked o q ws) → s.1 = none) := by
      rintro rfl hno
      refine ⟨rfl, fun h => ?_, fun h => h.1⟩
      rcases h with h | ⟨ws, h⟩
      · obtain ⟨l, hl⟩ := Option.ne_none_iff_exists'.1 h
        refine ⟨l, hl, fun x => ?_⟩
        constructor
        · exact fun hx => Or.inl ⟨l, hl, hx⟩
        · rintro (⟨ch, hc, hx⟩ | ⟨i, _, ws, h, _⟩)
          · rw [hl] at hc
            exact Option.some.inj hc ▸ hx
          · exact absurd h (hno ws)
      · exact absurd h (hno ws)
    unfold spwStage at h1
    cases hq : q.spws with
    | none =>
      rw [hq] at h1
      refine plain (Except.ok.inj h1).symm (fun ws h => ?_)
      rw [SpwsAsked, hq] at h
      exact nomatch h.1
    | some ws =>
      rw [hq] at h1
      dsimp only at h1
      by_cases h1w : o.spws.length = 1
      · rw [if_pos h1w] at h1
        exact plain (Except.ok.inj h1).symm (fun ws h => h.2 h1w)
      · rw [if_neg h1w, if_neg (by rw [hn]; exact Bool.false_ne_true)] at h1
        cases h1
        refine ⟨rfl, fun _ => ⟨_, rfl, fun x => ?_⟩, fun h => absurd ⟨hq, h1w⟩ (h.2 ws)⟩
        rw [mem_union, mem_whereInt]
        constructor
        · rintro (⟨i, hi, w, hw, hc⟩ | h)
          · exact Or.inr ⟨i, hi, ws, ⟨hq, h1w⟩, w, List.contains_iff_mem.1 hc, hw⟩
          · exact Or.inl h
        · rintro (h | ⟨i, hi, ws', hws, w, hw, hw'⟩)
          · exact Or.inr h
          · have := hws.1
            rw [hq] at this
            obtain rfl := Option.some.inj this
            exact Or.inl ⟨i, hi, w, hw', List.contains_iff_mem.2 hw⟩
  obtain ⟨hs2, hsome, hnone⟩ := hs
  refine ⟨hs2, ?_⟩
  unfold freqReq at h2
  rw [if_neg (by rw [hn]; exact fun h => Bool.false_ne_true h.1)] at h2
  cases hq : q.freqs with
  | none =>
    rw [hq] at h2
    dsimp only at h2
    have h2 := Except.ok.inj h2
    subst h2
    refine ⟨fun ha => ?_, fun ha => ?_⟩
    · have ha : q.chans ≠ none ∨ ∃ ws, SpwsAsked o q ws := by
        rcases ha with h | h | h
        · exact Or.inl h
        · exact absurd hq h
        · exact Or.inr h
      obtain ⟨l, hl, hm⟩ := hsome ha
      rw [hl] at h3
      refine ⟨_, freqStage_some h3, unique_sorted l, fun x => ?_⟩
      rw [mem_unique, hm x]
      constructor
      · rintro (h | ⟨i, rfl, h⟩)
        · exact Or.inl h
        · exact Or.inr ⟨i, rfl, Or.inr (Or.inr h)⟩
      · rintro (h | ⟨i, rfl, ⟨ch, h1, h2⟩ | ⟨fs, h, _⟩ | h⟩)
        · exact Or.inl h
        · exact Or.inl ⟨ch, h1, h2⟩
        · rw [hq] at h
          cases h
        · exact Or.inr ⟨i, rfl, h⟩
    · have : s.1 = none := by
        refine hnone ⟨?_, fun ws h => ha (Or.inr (Or.inr ⟨ws, h⟩))⟩
        by_contra h
        exact ha (Or.inl h)
      rw [this] at h3
      cases h3
      rfl
  | some fs =>
    rw [hq] at h2
    dsimp only at h2
    split at h2
    · cases h2
      refine ⟨fun _ => ⟨_, freqStage_some h3, unique_sorted _, fun x => ?_⟩, fun ha => absurd (Or.inr (Or.inl (by rw [hq]; exact Option.some_ne_none _))) ha⟩
      rw [mem_unique, mem_union, mem_whereInt]
      have hm : (∃ m', s.1 = some m' ∧ x ∈ m') ↔ (∃ ch, q.chans = some ch ∧ x ∈ ch) ∨
          ∃ i : Nat, x = i ∧ ∃ ws, SpwsAsked o q ws ∧ ∃ w ∈ ws, o.ids[i]? = some w := by
        constructor
        · rintro ⟨m', hm', hx⟩
          have : q.chans ≠ none ∨ ∃ ws, SpwsAsked o q ws := by
            by_contra hcon
            push Not at hcon
            rw [hnone hcon] at hm'
            cases hm'
          obtain ⟨l, hl, hml⟩ := hsome this
          rw [hl] at hm'
          obtain rfl := Option.some.inj hm'
          exact (hml x).1 hx
        · intro h
          have : q.chans ≠ none ∨ ∃ ws, SpwsAsked o q ws := by
            rcases h with ⟨ch, h, _⟩ | ⟨_, _, ws, h, _⟩
            · exact Or.inl (by rw [h]; exact Option.some_ne_none _)
            · exact Or.inr ⟨ws, h⟩
          obtain ⟨l, hl, hml⟩ := hsome this
          exact ⟨l, hl, (hml x).2 h⟩
      rw [hm]
      constructor
      · rintro (⟨i, rfl, f, hf, hc⟩ | h | ⟨i, rfl, h⟩)
        · exact Or.inr ⟨i, rfl, Or.inr (Or.inl ⟨fs, hq, f, List.contains_iff_mem.1 hc, hf⟩)⟩
        · exact Or.inl h
        · exact Or.inr ⟨i, rfl, Or.inr (Or.inr h)⟩
      · rintro (h | ⟨i, rfl, ⟨ch, h1, h2⟩ | ⟨fs', h, f, hf, hf'⟩ | h⟩)
        · exact Or.inr (Or.inl h)
        · exact Or.inr (Or.inl ⟨ch, h1, h2⟩)
        · rw [hq] at h
          obtain rfl := Option.some.inj h
          exact Or.inl ⟨i, rfl, f, hf', List.contains_iff_mem.2 hf⟩
        · exact Or.inr (Or.inr ⟨i, rfl, h⟩)
    · cases h2

/-- Windows of a wide-band object. -/
theorem spws_spec {o : Obj K R V Q} {q : Req K} {s : Option (List Int) × Option (List Nat)} {f f' : Option (List Int)} (hw : o.wide = true)
    (h1 : spwStage o q = .ok s) (h2 : freqReq o q s.1 = .ok f) (h3 : freqStage o f = .ok f') :
    f' = none ∧ Picks (eff o.spws.length s.2) o.spws.length (fun k => ∀ ws, SpwsAsked o q ws → ∃ w ∈ ws, o.spws[k]? = some w) := by
  unfold freqReq at h2
  by_cases hc : o.wide ∧ (s.1 ≠ none ∨ q.freqs ≠ none)
  · rw [if_pos hc] at h2
    cases h2
  · rw [if_neg hc] at h2
    have hs1 : s.1 = none := by
      by_contra h
      exact hc ⟨hw, Or.inl h⟩
    have hq : q.freqs = none := by
      by_contra h
      exact hc ⟨hw, Or.inr h⟩
    rw [hq] at h2
    have h2 := Except.ok.inj h2
    subst h2
    rw [hs1] at h3
    have h3 := Except.ok.inj h3
    refine ⟨h3.symm, ?_⟩
    have plain : s = (q.chans, none) → (∀ ws, ¬ SpwsAsked o q ws) →
        Picks (eff o.spws.length s.2) o.spws.length (fun k => ∀ ws, SpwsAsked o q ws → ∃ w ∈ ws, o.spws[k]? = some w) := by
      rintro rfl hno
      exact picks_range _ (fun i _ ws h => absurd h (hno ws))
    unfold spwStage at h1
    cases hq : q.spws with
    | none =>
      rw [hq] at h1
      refine plain (Except.ok.inj h1).symm (fun ws h => ?_)
      rw [SpwsAsked, hq] at h
      exact nomatch h.1
    | some ws =>
      rw [hq] at h1
      dsimp only at h1
      by_cases h1w : o.spws.length = 1
      · rw [if_pos h1w] at h1
        exact plain (Except.ok.inj h1).symm (fun ws h => h.2 h1w)
      · rw [if_neg h1w, if_pos hw] at h1
        split at h1
        · cases h1
          apply picks_where
          intro k x hx
          rw [List.contains_iff_mem]
          constructor
          · intro hm ws' hws
            have := hws.1
            rw [hq] at this
            obtain rfl := Option.some.inj this
            exact ⟨x, hm, hx⟩
          · intro h
            obtain ⟨w, hw, e⟩ := h ws ⟨hq, h1w⟩
            rw [hx] at e
            exact Option.some.inj e ▸ hw
        · cases h1

/-! ### Jones components -/

theorem code_spec {c : Ctx K R} {q : Req K} {js : List JReq} {ns : List Int} (hq : q.jones = some js) (h : js.mapM (jonesCode c) = .ok ns) (n : Int) :
    n ∈ ns ↔ Asked c q n := by
  rw [(mapM_ok h).1 n]
  constructor
  · rintro ⟨r, hr, hc⟩
    refine ⟨js, hq, ?_⟩
    cases r with
    | num m =>
      obtain rfl := Except.ok.inj hc
      exact Or.inl hr
    | str s =>
      refine Or.inr ⟨s, hr, ?_⟩
      unfold jonesCode at hc
      dsimp only at hc
      cases hs : c.jonesNum s with
      | none => rw [hs] at hc; cases hc
      | some m =>
        rw [hs] at hc
        cases hc
        rfl
  · rintro ⟨js', hq', h⟩
    rw [hq] at hq'
    obtain rfl := Option.some.inj hq'
    rcases h with h | ⟨s, h, hs⟩
    · exact ⟨_, h, rfl⟩
    · refine ⟨_, h, ?_⟩
      unfold jonesCode
      dsimp only
      rw [hs]

theorem where_spec {o : Obj K R V Q} {n : Int} {r : List Nat × List Nat} (h : jonesWhere o n = .ok r) :
    (∀ i, i ∈ r.1 ↔ o.jones[i]? = some n) ∧ (∀ k, k ∈ r.2 ↔ n ∉ o.jones ∧ ∃ fj, o.flexJones = some fj ∧ fj[k]? = some n) ∧ (n ∉ o.jones → r.2 ≠ []) := by
  unfold jonesWhere at h
  have hw : ∀ (l : List Int) (i : Nat), i ∈ whereIdx (fun p => p == n) l ↔ l[i]? = some n := by
    intro l i
    rw [mem_whereIdx]
    constructor
    · rintro ⟨x, hx, h⟩
      rw [hx, beq_iff_eq.1 h]
    · exact fun h => ⟨n, h, beq_self_eq_true n⟩
  by_cases hc : o.jones.contains n = true
  · rw [if_pos hc] at h
    have h := Except.ok.inj h
    subst h
    rw [List.contains_iff_mem] at hc
    refine ⟨fun i => hw _ i, fun k => ?_, fun h => absurd hc h⟩
    simp [hc]
  · rw [if_neg hc] at h
    rw [List.contains_iff_mem] at hc
    cases hf : o.flexJones with
    | none => rw [hf] at h; cases h
    | some fj =>
      rw [hf] at h
      dsimp only at h
      by_cases hm : fj.contains n = true
      · rw [if_pos hm] at h
        have h := Except.ok.inj h
        subst h
        rw [List.contains_iff_mem] at hm
        refine ⟨fun i => ?_, fun k => ?_, fun _ => ?_⟩
        · constructor
          · exact fun h => nomatch h
          · exact fun h => absurd (List.mem_of_getElem? h) hc
        · rw [hw]
          constructor
          · exact fun h => ⟨hc, fj, rfl, h⟩
          · rintro ⟨_, fj', e, h⟩
            exact Option.some.inj e ▸ h
        · obtain ⟨k, hk⟩ := List.mem_iff_getElem?.1 hm
          exact List.ne_nil_of_mem ((hw fj k).2 hk)
      · rw [if_neg hm] at h
        cases h

/-- What the Jones components change of the channels and windows, and which are kept. -/
theorem jones_spec {c : Ctx K R} {o : Obj K R V Q} {q : Req K} {ch : Option (List Int)} {sp : Option (List Nat)}
    {r : Option (List Int) × Option (List Nat) × Option (List Nat)} (h : jonesStage c o q ch sp = .ok r) :
    Picks (eff o.jones.length r.2.2) o.jones.length (fun j => q.jones = none ∨ ByWindow c o q ∨ ∃ n, Asked c q n ∧ o.jones[j]? = some n) ∧
    (¬ ByWindow c o q → r.1 = ch ∧ r.2.1 = sp) ∧
    (ByWindow c o q → ∃ js, (∀ k, k ∈ js ↔ WinAsked c o q k) ∧ flexStage o js ch sp = .ok (r.1, r.2.1)) := by
  unfold jonesStage at h
  cases hq : q.jones with
  | none =>
    rw [hq] at h
    have h := Except.ok.inj h
    subst h
    have hb : ¬ ByWindow c o q := by
      rintro ⟨n, ⟨js, h, _⟩, _⟩
      rw [hq] at h
      cases h
    exact ⟨picks_range _ (fun i _ => Or.inl rfl), fun _ => ⟨rfl, rfl⟩, fun h => absurd h hb⟩
  | some js =>
    rw [hq] at h
    dsimp only at h
    cases h1 : js.mapM (jonesCode c) with
    | error e => rw [h1] at h; cases h
    | ok ns =>
      rw [h1] at h
      cases h2 : ns.mapM (jonesWhere o) with
      | error e =>
        have h : (Except.bind (ns.mapM (jonesWhere o)) _) = .ok r := h
        rw [h2] at h
        cases h
      | ok ws =>
        have h : (Except.bind (ns.mapM (jonesWhere o)) _) = .ok r := h
        rw [h2] at h
        have hns := code_spec hq h1
        obtain ⟨hws, hok⟩ := mapM_ok h2
        have hsp : ∀ k, k ∈ ws.flatMap (·.2) ↔ WinAsked c o q k := by
          intro k
          rw [List.mem_flatMap]
          constructor
          · rintro ⟨x, hx, hk⟩
            obtain ⟨n, hn, e⟩ := (hws x).1 hx
            obtain ⟨h3, fj, h4, h5⟩ := ((where_spec e).2.1 k).1 hk
            exact ⟨fj, n, h4, h5, (hns n).1 hn, h3⟩
          · rintro ⟨fj, n, h4, h5, hn, h3⟩
            obtain ⟨x, e⟩ := hok n ((hns n).2 hn)
            exact ⟨x, (hws x).2 ⟨n, (hns n).2 hn, e⟩, ((where_spec e).2.1 k).2 ⟨h3, fj, h4, h5⟩⟩
        have hby : ws.flatMap (·.2) ≠ [] ↔ ByWindow c o q := by
          constructor
          · intro h
            obtain ⟨k, hk⟩ := List.exists_mem_of_ne_nil _ h
            obtain ⟨fj, n, _, _, hn, h3⟩ := (hsp k).1 hk
            exact ⟨n, hn, h3⟩
          · rintro ⟨n, hn, h3⟩
            obtain ⟨x, e⟩ := hok n ((hns n).2 hn)
            obtain ⟨k, hk⟩ := List.exists_mem_of_ne_nil _ ((where_spec e).2.2 h3)
            exact List.ne_nil_of_mem (List.mem_flatMap.2 ⟨x, (hws x).2 ⟨n, (hns n).2 hn, e⟩, hk⟩)
        have h : (if ws.flatMap (·.2) ≠ [] then (flexStage o (ws.flatMap (·.2)) ch sp).map (fun r => (r.1, r.2, none))
            else .ok (ch, sp, some (unique (ws.flatMap (·.1))))) = Except.ok r := h
        by_cases hb : ByWindow c o q
        · rw [if_pos (hby.2 hb)] at h
          cases hf : flexStage o (ws.flatMap (·.2)) ch sp with
          | error e => rw [hf] at h; cases h
          | ok x =>
            rw [hf] at h
            have h := Except.ok.inj h
            subst h
            exact ⟨picks_range _ (fun i _ => Or.inr (Or.inl hb)), fun h => absurd hb h, fun _ => ⟨_, hsp, hf⟩⟩
        · rw [if_neg (fun h => hb (hby.1 h))] at h
          have h := Except.ok.inj h
          subst h
          refine ⟨⟨unique_sorted _, fun j => ?_⟩, fun _ => ⟨rfl, rfl⟩, fun h => absurd h hb⟩
          show j ∈ unique _ ↔ _
          rw [mem_unique, List.mem_flatMap]
          constructor
          · rintro ⟨x, hx, hj⟩
            obtain ⟨n, hn, e⟩ := (hws x).1 hx
            have hj := ((where_spec e).1 j).1 hj
            exact ⟨(List.getElem?_eq_some_iff.1 hj).1, Or.inr (Or.inr ⟨n, (hns n).1 hn, hj⟩)⟩
          · rintro ⟨_, h | h | ⟨n, hn, hj⟩⟩
            · cases h
            · exact absurd h hb
            · obtain ⟨x, e⟩ := hok n ((hns n).2 hn)
              exact ⟨x, (hws x).2 ⟨n, (hns n).2 hn, e⟩, ((where_spec e).1 j).2 hj⟩

end Verif.CalSelect
