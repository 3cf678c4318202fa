import Verif.FlagSel.Props

namespace Verif.FlagSel
open Verif.Np Verif.FreqSort
open Verif.Pol (Str)
open Verif.Select (PolReq pyGet wh join joinOpt mem_wh mem_join bind_ok In in_joinOpt joinOpt_none)
open Verif.CalSelect (via pos Picks eff picks_where picks_range mapM_ok fancy_length fancy_get via_range via_lt)

variable {K V : Type} [LinearOrder K]

/-! ## All stages -/

/-- Positions that all exist. -/
def Rng (n : Nat) (a : Option (List Int)) : Prop := a ≠ none ∧ ∀ l, a = some l → ∀ i ∈ l, 0 ≤ i ∧ i < (n : Int)

theorem rng_left {n : Nat} {a b : Option (List Int)} (h : Rng n a) : Rng n (joinOpt a b) := by
  refine ⟨fun hc => h.1 ((joinOpt_none a b).1 hc).1, ?_⟩
  cases b with
  | none => exact h.2
  | some m =>
    intro l hl i hi
    cases hl
    cases a with
    | none => exact absurd rfl h.1
    | some k => exact h.2 k rfl i ((mem_join.1 hi).1 k rfl)

theorem rng_right {n : Nat} {a b : Option (List Int)} (h : Rng n b) : Rng n (joinOpt a b) := by
  refine ⟨fun hc => h.1 ((joinOpt_none a b).1 hc).2, ?_⟩
  cases b with
  | none => exact absurd rfl h.1
  | some m =>
    intro l hl i hi
    cases hl
    exact h.2 m rfl i (mem_join.1 hi).2

omit [LinearOrder K] in
theorem rng_wh (p : Row K → Bool) (rows : List (Row K)) : Rng rows.length (some (wh p rows)) := by
  refine ⟨by simp, ?_⟩
  intro l hl i hi
  cases hl
  obtain ⟨k, r, rfl, hr, -⟩ := mem_wh.1 hi
  have := (List.getElem?_eq_some_iff.1 hr).1
  omega

omit [LinearOrder K] in
theorem antRows_none (o : Obj K V) (q : Req K) : antRows o q = none ↔ ¬ (o.ty = .baseline ∧ q.antNums ≠ none) := by
  unfold antRows
  by_cases h : o.ty = .baseline
  · rw [if_pos h]
    simp [h]
  · rw [if_neg h]
    simp [h]

omit [LinearOrder K] in
theorem antRows_rng (o : Obj K V) (q : Req K) (h : antRows o q ≠ none) : Rng o.rows.length (antRows o q) := by
  unfold antRows at h ⊢
  by_cases hb : o.ty = .baseline
  · rw [if_pos hb] at h ⊢
    cases hq : q.antNums with
    | none => rw [hq] at h; exact absurd rfl h
    | some l => exact rng_wh _ _
  · rw [if_neg hb] at h
    exact absurd rfl h

omit [LinearOrder K] in
theorem in_antRows (o : Obj K V) (q : Req K) (i : Nat) (r : Row K) (hr : o.rows[i]? = some r) :
    In (i : Int) (antRows o q) ↔ (o.ty = .baseline → ∀ l, q.antNums = some l → r.ant1 ∈ l ∧ r.ant2 ∈ l) := by
  unfold antRows In
  by_cases hb : o.ty = .baseline
  · rw [if_pos hb]
    cases hq : q.antNums with
    | none => simp
    | some l =>
      simp only [Option.map_some, Option.some.injEq, forall_eq', hb, true_implies]
      rw [mem_wh]
      constructor
      · rintro ⟨k, r', hk, hr', hp⟩
        obtain rfl : i = k := by omega
        rw [hr] at hr'
        cases hr'
        simpa using hp
      · intro hp
        exact ⟨i, r, rfl, hr, by simpa using hp⟩
  · rw [if_neg hb]
    simp [hb]

theorem in_timeRows (o : Obj K V) (q : Req K) (i : Nat) (r : Row K) (hr : o.rows[i]? = some r) :
    In (i : Int) (timeRows o q) ↔ ∀ l, q.times = some l → r.time ∈ l := by
  unfold timeRows In
  cases hq : q.times with
  | none => simp
  | some l =>
    simp only [Option.map_some, Option.some.injEq, forall_eq']
    rw [mem_wh]
    constructor
    · rintro ⟨k, r', hk, hr', hp⟩
      obtain rfl : i = k := by omega
      rw [hr] at hr'
      cases hr'
      simpa using hp
    · intro hp
      exact ⟨i, r, rfl, hr, by simpa using hp⟩

/-- The rows before they are sorted. -/
def mid (o : Obj K V) (q : Req K) (b : Option (List Int)) : Option (List Int) := joinOpt (joinOpt q.bltInds b) (timeRows o q)

section
variable {c : Ctx} {o : Obj K V} {q : Req K} {b : Option (List Int) × Option (List PolReq)}

theorem mid_none (hb : BlGives c o (asked c q).1 (asked c q).2 (antRows o q) b) :
    mid o q b.1 = none ↔ q.bltInds = none ∧ ¬ OtherRows c o q := by
  unfold mid OtherRows
  rw [joinOpt_none, joinOpt_none, hb.isNone, antRows_none]
  have : timeRows o q = none ↔ q.times = none := by unfold timeRows; simp
  rw [this]
  tauto

theorem mid_in (hb : BlGives c o (asked c q).1 (asked c q).2 (antRows o q) b) (i : Nat) (r : Row K)
    (hr : o.rows[i]? = some r) : In (i : Int) (mid o q b.1) ↔ RowOk c o q i r := by
  unfold mid
  rw [in_joinOpt, in_joinOpt, hb.rows i r hr, in_antRows o q i r hr, in_timeRows o q i r hr]
  constructor
  · rintro ⟨⟨h1, h2, h3⟩, h4⟩
    exact ⟨h1, h2, h3, h4⟩
  · rintro ⟨h1, h2, h3, h4⟩
    exact ⟨⟨h1, h2, h3⟩, h4⟩

theorem mid_rng (hb : BlGives c o (asked c q).1 (asked c q).2 (antRows o q) b) (h : OtherRows c o q) :
    Rng o.rows.length (mid o q b.1) := by
  unfold mid
  by_cases ht : q.times = none
  · refine rng_left (rng_right ⟨?_, ?_⟩)
    · intro hn
      rw [hb.isNone, antRows_none] at hn
      unfold OtherRows at h
      tauto
    · refine hb.range ?_
      intro l hl
      exact (antRows_rng o q (by rw [hl]; simp)).2 l hl
  · refine rng_right ?_
    unfold timeRows
    cases hq : q.times with
    | none => exact absurd hq ht
    | some l => exact rng_wh _ _

/-- Rows: what is kept, and when. -/
theorem rows_spec (hb : BlGives c o (asked c q).1 (asked c q).2 (antRows o q) b) :
    (∀ r, finalRows o (mid o q b.1) = .ok r →
      (q.bltInds ≠ none ∨ OtherRows c o q → ∃ i r, o.rows[i]? = some r ∧ RowOk c o q i r) ∧
      (∀ l, q.bltInds = some l → ¬ OtherRows c o q → ∀ i ∈ l, 0 ≤ i ∧ i < o.rows.length) ∧
      Picks (eff o.rows.length r) o.rows.length (fun i => ∀ x, o.rows[i]? = some x → RowOk c o q i x)) ∧
    ((q.bltInds ≠ none ∨ OtherRows c o q → ∃ i r, o.rows[i]? = some r ∧ RowOk c o q i r) →
      (∀ l, q.bltInds = some l → ¬ OtherRows c o q → ∀ i ∈ l, 0 ≤ i ∧ i < o.rows.length) →
      ∃ r, finalRows o (mid o q b.1) = .ok r) := by
  constructor
  · intro r h
    rcases (final_iff o _ r).1 h with ⟨hm, rfl⟩ | ⟨l, hm, hne, hr, rfl⟩
    · obtain ⟨h1, h2⟩ := (mid_none hb).1 hm
      refine ⟨fun h => (h.elim (fun h => absurd h1 h) (fun h => absurd h h2)), ?_, ?_⟩
      · intro l hl
        rw [h1] at hl
        cases hl
      · refine picks_range _ (fun i hi x hx => ?_)
        rw [← mid_in hb i x hx, hm]
        exact fun l hl => nomatch hl
    · have hmem : ∀ i : Nat, i ∈ (unique l).map Int.toNat ↔ (i : Int) ∈ l := by
        intro i
        rw [List.mem_map]
        constructor
        · rintro ⟨j, hj, rfl⟩
          rw [mem_unique] at hj
          rwa [Int.toNat_of_nonneg (hr j hj).1]
        · intro hi
          exact ⟨i, mem_unique.2 hi, by simp⟩
      have hin : ∀ i : Nat, In (i : Int) (mid o q b.1) ↔ (i : Int) ∈ l := by
        intro i
        rw [hm]
        exact ⟨fun h => h l rfl, fun h m hm => by cases hm; exact h⟩
      refine ⟨?_, ?_, ?_, ?_⟩
      · rintro -
        obtain ⟨j, hj⟩ := List.exists_mem_of_ne_nil _ hne
        obtain ⟨h0, h1⟩ := hr j hj
        have hlt : j.toNat < o.rows.length := by omega
        refine ⟨j.toNat, o.rows[j.toNat], List.getElem?_eq_getElem hlt, ?_⟩
        rw [← mid_in hb _ _ (List.getElem?_eq_getElem hlt), hin, Int.toNat_of_nonneg h0]
        exact hj
      · intro bi hbi hno
        have : mid o q b.1 = some bi := by
          unfold mid
          have h2 : b.1 = none := by
            rw [hb.isNone, antRows_none]
            unfold OtherRows at hno
            tauto
          have h3 : timeRows o q = none := by
            unfold timeRows OtherRows at *
            simp only [Option.map_eq_none_iff]
            tauto
          rw [h2, h3, hbi]
          rfl
        rw [this] at hm
        cases hm
        exact hr
      · change ((unique l).map Int.toNat).Pairwise (· < ·)
        rw [List.pairwise_map]
        refine (unique_sorted l).imp_of_mem ?_
        intro x y hx hy hxy
        have := hr x (mem_unique.1 hx)
        have := hr y (mem_unique.1 hy)
        omega
      · intro i
        change i ∈ (unique l).map Int.toNat ↔ _
        rw [hmem i, ← hin i]
        constructor
        · intro hi
          have hlt : i < o.rows.length := by
            have := hr i ((hin i).1 hi)
            omega
          exact ⟨hlt, fun x hx => (mid_in hb i x hx).1 hi⟩
        · rintro ⟨hlt, h⟩
          exact (mid_in hb i _ (List.getElem?_eq_getElem hlt)).2 (h _ (List.getElem?_eq_getElem hlt))
  · intro h1 h2
    cases hm : mid o q b.1 with
    | none => exact ⟨none, rfl⟩
    | some l =>
      have hask : q.bltInds ≠ none ∨ OtherRows c o q := by
        by_contra hc
        rw [not_or, not_not] at hc
        rw [(mid_none hb).2 hc] at hm
        cases hm
      refine ⟨_, (final_iff o _ _).2 (Or.inr ⟨l, rfl, ?_, ?_, rfl⟩)⟩
      · obtain ⟨i, r, hr, hok⟩ := h1 hask
        rw [← mid_in hb i r hr, hm] at hok
        exact List.ne_nil_of_mem (hok l rfl)
      · by_cases hno : OtherRows c o q
        · exact (mid_rng hb hno).2 l hm
        · have h3 : b.1 = none := by
            rw [hb.isNone, antRows_none]
            unfold OtherRows at hno
            tauto
          have h4 : timeRows o q = none := by
            unfold timeRows OtherRows at *
            simp only [Option.map_eq_none_iff]
            tauto
          unfold mid at hm
          rw [h3, h4] at hm
          exact h2 l hm hno

omit [LinearOrder K] in
/-- Polarizations asked for. -/
theorem pols_asked (hb : BlGives c o (asked c q).1 (asked c q).2 (antRows o q) b) :
    (b.2 = none ↔ ¬ PolsAsked c o q) ∧ ∀ ps, b.2 = some ps → ∀ p, p ∈ ps ↔ WantedPol c o q p := by
  unfold PolsAsked WantedPol PairPol
  by_cases h : ∃ s, PairsPol c o (asked c q).1 s
  · obtain ⟨ps, h1, h2⟩ := hb.pols h
    have h' := h
    unfold PairsPol at h'
    refine ⟨?_, ?_⟩
    · rw [h1]
      simp only [reduceCtorEq, false_iff, not_not]
      exact Or.inl h'
    · intro ps' hps p
      rw [h1] at hps
      cases hps
      rw [h2 p]
      constructor
      · exact fun h => Or.inl h
      · rintro (h | ⟨h, -⟩)
        · exact h
        · exact absurd h' h
  · have h1 := hb.none h
    have h' := h
    unfold PairsPol at h'
    refine ⟨?_, ?_⟩
    · rw [h1]
      constructor
      · rintro hn (h | h)
        · exact h' h
        · exact h hn
      · intro hn
        by_contra hc
        exact hn (Or.inr hc)
    · intro ps hps p
      rw [h1] at hps
      constructor
      · exact fun h => Or.inr ⟨h', ps, hps, h⟩
      · rintro (⟨s, hs, -⟩ | ⟨-, ps', hps', hp⟩)
        · exact absurd ⟨s, hs⟩ h'
        · rw [hps] at hps'
          cases hps'
          exact hp

end

/-- What the stages give together. -/
structure Gives (c : Ctx) (o : Obj K V) (q : Req K) (i : Inds) : Prop where
  rows : Picks (eff o.rows.length i.rows) o.rows.length (fun k => ∀ x, o.rows[k]? = some x → RowOk c o q k x)
  chans : Picks (eff o.freq.length i.chans) o.freq.length (ChanOk o q)
  pols : Picks (eff o.pols.length i.pols) o.pols.length (PolOk c o q)
  ants : i.ants = antIdx o q

/-- Everything asked for is there, apart from positions of antennas. -/
structure Fits' (c : Ctx) (o : Obj K V) (q : Req K) : Prop where
  str : StrFits c o q
  ants : AntFits o q
  pairs : BlFits c o (asked c q).1 (asked c q).2
  times : TimeFits o q
  rows : q.bltInds ≠ none ∨ OtherRows c o q → ∃ i r, o.rows[i]? = some r ∧ RowOk c o q i r
  inds : ∀ l, q.bltInds = some l → ¬ OtherRows c o q → ∀ i ∈ l, 0 ≤ i ∧ i < o.rows.length
  freqs : FreqFits o q
  pols : ∀ p, WantedPol c o q p → ∃ n, IsPol c p n ∧ PolReq.num n ∈ o.pols

theorem pre_iff (c : Ctx) (o : Obj K V) (q : Req K) (i : Inds) :
    preprocess c o q = .ok i ↔ ∃ b r f f' p, StrFits c o q ∧ AntFits o q ∧
      blStage c o (asked c q).1 (asked c q).2 (antRows o q) = .ok b ∧ TimeFits o q ∧
      finalRows o (mid o q b.1) = .ok r ∧ freqReq o q = .ok f ∧ freqStage o f = .ok f' ∧ polStage c o b.2 = .ok p ∧
      i = ⟨r, antIdx o q, f', p⟩ := by
  unfold preprocess
  simp only [bind_ok, str_iff, ant_iff, time_iff, Except.ok.injEq]
  constructor
  · rintro ⟨s, ⟨h1, rfl⟩, a, ⟨h2, rfl⟩, b, h3, t, ⟨h4, rfl⟩, r, h5, f, h6, f', h7, p, h8, rfl⟩
    exact ⟨b, r, f, f', p, h1, h2, h3, h4, h5, h6, h7, h8, rfl⟩
  · rintro ⟨b, r, f, f', p, h1, h2, h3, h4, h5, h6, h7, h8, rfl⟩
    exact ⟨_, ⟨h1, rfl⟩, _, ⟨h2, rfl⟩, b, h3, _, ⟨h4, rfl⟩, r, h5, f, h6, f', h7, p, h8, rfl⟩

theorem pre_ok (c : Ctx) (o : Obj K V) (q : Req K) (i : Inds) (h : preprocess c o q = .ok i) :
    Fits' c o q ∧ Gives c o q i := by
  obtain ⟨b, r, f, f', p, h1, h2, h3, h4, h5, h6, h7, h8, rfl⟩ := (pre_iff c o q i).1 h
  obtain ⟨hb1, hb⟩ := bl_ok c o _ _ _ b h3
  obtain ⟨hr1, hr2, hr3⟩ := (rows_spec hb).1 r h5
  obtain ⟨hf1, hf2⟩ := (chans_spec o q).1 f f' h6 h7
  obtain ⟨hp1, hp2⟩ := (pol_spec c o b.2).1 p h8
  obtain ⟨ha1, ha2⟩ := pols_asked hb
  have hasked : ∀ p, WantedPol c o q p → ∃ ps, b.2 = some ps ∧ p ∈ ps := by
    intro p hw
    cases hb2 : b.2 with
    | none =>
      exfalso
      refine ha1.1 hb2 ?_
      rcases hw with ⟨s, hs, -⟩ | ⟨-, ps, hps, -⟩
      · exact Or.inl ⟨s, hs⟩
      · exact Or.inr (by rw [hps]; simp)
    | some ps => exact ⟨ps, rfl, (ha2 ps hb2 p).2 hw⟩
  refine ⟨⟨h1, h2, hb1, h4, hr1, hr2, hf1, ?_⟩, hr3, hf2, ⟨hp2.sorted, ?_⟩, rfl⟩
  · intro p hw
    obtain ⟨ps, hps, hp⟩ := hasked p hw
    exact hp1 ps hps p hp
  · intro j
    rw [hp2.mem j]
    refine and_congr_right (fun _ => ?_)
    unfold PolOk
    constructor
    · intro h hask
      cases hb2 : b.2 with
      | none => exact absurd hask (ha1.1 hb2)
      | some ps =>
        obtain ⟨p, hp, n, hn, hj⟩ := h ps hb2
        exact ⟨p, n, (ha2 ps hb2 p).1 hp, hn, hj⟩
    · intro h ps hps
      have hask : PolsAsked c o q := by
        by_contra hc
        rw [ha1.2 hc] at hps
        cases hps
      obtain ⟨p, n, hw, hn, hj⟩ := h hask
      exact ⟨p, (ha2 ps hps p).2 hw, n, hn, hj⟩

theorem pre_total (c : Ctx) (o : Obj K V) (q : Req K) (h : Fits' c o q) : ∃ i, preprocess c o q = .ok i := by
  obtain ⟨b, hb0⟩ := bl_total c o _ _ (antRows o q) h.pairs
  obtain ⟨-, hb⟩ := bl_ok c o _ _ _ b hb0
  obtain ⟨r, hr⟩ := (rows_spec hb).2 h.rows h.inds
  obtain ⟨f, f', hf, hf'⟩ := (chans_spec o q).2 h.freqs
  obtain ⟨p, hp⟩ := (pol_spec c o b.2).2 (fun ps hps p hp => h.pols p (((pols_asked hb).2 ps hps p).1 hp))
  exact ⟨_, (pre_iff c o q _).2 ⟨b, r, f, f', p, h.str, h.ants, hb0, h.times, hr, hf, hf', hp, rfl⟩⟩

end Verif.FlagSel
