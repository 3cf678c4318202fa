import Verif.Check.Spec
import Mathlib.Tactic.Ring
import Mathlib.Tactic.Linarith

/-! When a check passes (C145), what it does to autocorrelations (C146), and what it changes (C147). -/

namespace Verif.Check

variable {K : Type} [Field K] [LinearOrder K]

theorem ite_none (c : Prop) [Decidable c] (e : Err) (x : Option Err) :
    (if c then some e else x) = none ↔ ¬ c ∧ x = none := by
  by_cases h : c <;> simp [h]

omit [Field K] in
theorem meta_iff (o : Obj K) : metaErr o = none ↔ Meta o := by
  have e1 : (o.ant1.toFinset ∪ o.ant2.toFinset).card = (o.ant1 ++ o.ant2).dedup.length := by
    rw [← List.toFinset_append, List.card_toFinset]
  unfold metaErr
  constructor
  · intro h
    simp only [ite_none] at h
    obtain ⟨h1, h2, h3, h4, h5, h6, h7, h8, h9, h10, h11, h12, h13, -⟩ := h
    refine ⟨?_, ?_, ?_, ?_, ?_, ?_, ?_, ?_, ?_, ?_, ?_⟩
    · simpa using h1
    · simpa using h2
    · intro ht
      simp only [ht, Bool.true_and, Bool.not_eq_true', Bool.not_eq_false] at h3
      simp only [ht, Bool.true_and, decide_eq_true_eq, not_and] at h4
      exact ⟨h3, h4⟩
    · rw [e1]; simpa using h5
    · rw [List.card_toFinset]; simpa using h6
    · rw [List.card_toFinset]; simpa using h7
    · simpa using h8
    · intro l hl
      simp only [hl, Option.isSome_some, Bool.true_and, decide_eq_true_eq, not_not] at h9
      simp only [hl, Option.isSome_some, Bool.true_and, List.any_eq_true, bne_iff_ne, not_exists, not_and, not_not] at h10
      exact ⟨h9, h10⟩
    · intro hl h0
      simp only [hl, Option.isNone_none, Bool.true_and, List.any_eq_true, beq_iff_eq, not_exists, not_and] at h11
      exact h11 0 h0 rfl
    · simpa using h12
    · simpa using h13
  · intro h
    rw [if_neg (by simpa using h.conv), if_neg (by simpa using h.spw), if_neg ?_, if_neg ?_,
      if_neg (by rw [← e1]; simpa using h.nants), if_neg (by rw [← List.card_toFinset]; simpa using h.nbls),
      if_neg (by rw [← List.card_toFinset]; simpa using h.ntimes), if_neg (by simpa using h.centers), if_neg ?_, if_neg ?_,
      if_neg ?_, if_neg (by simpa using h.ant1), if_neg (by simpa using h.ant2)]
    · intro hc
      simp only [Bool.and_eq_true, List.any_eq_true, beq_iff_eq, Option.isNone_iff_eq_none] at hc
      obtain ⟨hc1, p, hp, rfl⟩ := hc
      exact h.noFlex hc1 hp
    · intro hc
      simp only [Bool.and_eq_true, List.any_eq_true, bne_iff_ne] at hc
      obtain ⟨hc1, p, hp, hne⟩ := hc
      obtain ⟨l, hl⟩ := Option.isSome_iff_exists.1 hc1
      exact hne ((h.flex l hl).2 p hp)
    · intro hc
      simp only [Bool.and_eq_true, decide_eq_true_eq] at hc
      obtain ⟨l, hl⟩ := Option.isSome_iff_exists.1 hc.1
      exact hc.2 (h.flex l hl).1
    · intro hc
      simp only [Bool.and_eq_true, decide_eq_true_eq] at hc
      exact (h.faster hc.1).2 hc.2.1 hc.2.2
    · intro hc
      simp only [Bool.and_eq_true, Bool.not_eq_true'] at hc
      have := (h.faster hc.1).1
      rw [hc.2] at this
      simp at this

theorem near_iff {rtol atol : K} {expd : Nat → Nat → K} {o : Obj K} {sign : K} :
    uvwClose rtol atol expd o sign = true ↔ Near rtol atol expd o sign := by
  simp only [uvwClose, rows, List.all_eq_true, List.mem_range, decide_eq_true_eq, Near]
  refine forall_congr' fun r => imp_congr_right fun _ => ?_
  constructor
  · intro h c hc
    exact h c (by simp; omega)
  · intro h c hc
    exact h c (by simp at hc; omega)

omit [Field K] [LinearOrder K] in
theorem auto_iff {o : Obj K} (hs : o.ant1.length = o.ant2.length) {r : Nat} (hr : r < o.ant1.length) :
    (isAuto o r = true ↔ Auto o r) ∧ (isAuto o r = false ↔ Cross o r) := by
  have h1 : o.ant1[r]? = some o.ant1[r] := List.getElem?_eq_getElem hr
  have h2 : o.ant2[r]? = some (o.ant2[r]'(by omega)) := List.getElem?_eq_getElem (by omega)
  simp only [isAuto, decide_eq_true_eq, decide_eq_false_iff_not, Auto, Cross, h1, h2, Option.some.injEq]
  refine ⟨⟨fun h => ⟨_, rfl, h.symm⟩, ?_⟩, ⟨fun h => ⟨_, _, rfl, rfl, h⟩, ?_⟩⟩
  · rintro ⟨a, rfl, h⟩; exact h.symm
  · rintro ⟨a, b, rfl, rfl, h⟩; exact h

omit [Field K] [LinearOrder K] in
theorem auto_lt {o : Obj K} {r : Nat} (h : Auto o r) : r < o.ant1.length := by
  obtain ⟨a, h1, -⟩ := h
  exact (List.getElem?_eq_some_iff.1 h1).1

omit [Field K] [LinearOrder K] in
theorem cross_lt {o : Obj K} {r : Nat} (h : Cross o r) : r < o.ant1.length := by
  obtain ⟨a, b, h1, -⟩ := h
  exact (List.getElem?_eq_some_iff.1 h1).1

theorem realPol_iff (q : Int) : realPol q = true ↔ RealPol q := by
  simp only [realPol, List.mem_cons, List.not_mem_nil, or_false, decide_eq_true_eq, RealPol]
  tauto

theorem spwInd_eq {l : List Nat} (hn : l.Nodup) {i s : Nat} (h : l[i]? = some s) : spwInd l s = i := by
  have hi : i < l.length := (List.getElem?_eq_some_iff.1 h).1
  have : (List.range l.length).filter (fun k => decide (l[k]? = some s)) = [i] := by
    have hnd : ((List.range l.length).filter (fun k => decide (l[k]? = some s))).Nodup := List.nodup_range.filter _
    have hp : ((List.range l.length).filter (fun k => decide (l[k]? = some s))).Perm [i] := by
      rw [List.perm_ext_iff_of_nodup hnd (by simp)]
      intro a
      simp only [List.mem_filter, List.mem_range, decide_eq_true_eq, List.mem_singleton]
      constructor
      · rintro ⟨ha, hb⟩
        exact (List.getElem?_inj ha hn).1 (hb.trans h.symm)
      · rintro rfl
        exact ⟨hi, h⟩
    exact List.perm_singleton.1 hp
  unfold spwInd
  rw [this]
  rfl

omit [Field K] [LinearOrder K] in
/-- The screen looks at the polarization of the channel. -/
theorem screen_iff {o : Obj K} (hs : Shaped o) (hw : ∀ s ∈ o.flexId, s ∈ o.spws) {f p : Nat} (hf : f < o.nf)
    (hp : p < o.npols) : screen o f p = true ↔ ∃ q, PolAt o f p q ∧ RealPol q := by
  cases hfl : o.flexPol with
  | none =>
    have h : o.pols[p]? = some (o.pols[p]'(by rw [hs.pols]; exact hp)) := List.getElem?_eq_getElem _
    simp only [screen, hfl, realPol_iff, PolAt, h, Option.some.injEq, exists_eq_left', List.getD_eq_getElem?_getD,
      Option.getD_some]
  | some l =>
    have hf' : f < o.flexId.length := by rw [hs.ids]; exact hf
    have h : o.flexId[f]? = some o.flexId[f] := List.getElem?_eq_getElem _
    obtain ⟨i, hi⟩ := List.mem_iff_getElem?.1 (hw _ (List.getElem_mem hf'))
    have hil : i < l.length := by
      rw [hs.flex l hfl]
      exact (List.getElem?_eq_some_iff.1 hi).1
    have hl : l[i]? = some l[i] := List.getElem?_eq_getElem _
    have hpol : ∀ q, PolAt o f p q ↔ q = l[i] := by
      intro q
      simp only [PolAt, hfl, h, Option.some.injEq, exists_and_left, exists_eq_left']
      constructor
      · rintro ⟨j, hj, hq⟩
        have : i = j := (List.getElem?_inj (List.getElem?_eq_some_iff.1 hi).1 hs.spws).1 (hi.trans hj.symm)
        subst this
        rw [hl] at hq
        exact (Option.some.inj hq).symm
      · rintro rfl
        exact ⟨i, hi, hl⟩
    simp only [hpol, exists_eq_left]
    simp only [screen, hfl, List.getD_eq_getElem?_getD, h, Option.getD_some, spwInd_eq hs.spws hi, hl, realPol_iff]

theorem autoImag_iff {o : Obj K} (hs : Shaped o) (hw : ∀ s ∈ o.flexId, s ∈ o.spws) {d : Nat → Nat → Nat → K × K}
    (hd : o.data = some d) : autoImag o d = false ↔ AutosReal o := by
  constructor
  · intro h d' hd' r f p q hr hf hp hq hre
    rw [hd] at hd'
    obtain rfl := Option.some.inj hd'
    by_contra hne
    have hlt := auto_lt hr
    have : autoImag o d = true := by
      simp only [autoImag, rows, List.any_eq_true, List.mem_range, Bool.and_eq_true, decide_eq_true_eq]
      exact ⟨r, hlt, (auto_iff hs.ants hlt).1.2 hr, f, hf, p, hp, (screen_iff hs hw hf hp).2 ⟨q, hq, hre⟩, hne⟩
    rw [h] at this
    simp at this
  · intro h
    by_contra hc
    rw [Bool.not_eq_false] at hc
    simp only [autoImag, rows, List.any_eq_true, List.mem_range, Bool.and_eq_true, decide_eq_true_eq] at hc
    obtain ⟨r, hr, ha, f, hf, p, hp, hsc, hne⟩ := hc
    obtain ⟨q, hq, hre⟩ := (screen_iff hs hw hf hp).1 hsc
    exact hne (h d hd r f p q ((auto_iff hs.ants hr).1.1 ha) hf hp hq hre)

/-- Autocorrelations have no baseline vector, cross-correlations have one. -/
structure Lengths (tol : K) (o : Obj K) : Prop where
  autos : ∀ r, Auto o r → ∀ c < 3, |o.uvw r c| ≤ tol
  cross : ∀ r, Cross o r → tol ^ 2 < o.uvw r 0 ^ 2 + o.uvw r 1 ^ 2 + o.uvw r 2 ^ 2

theorem crossErr_iff {tol : K} {o : Obj K} (hs : o.ant1.length = o.ant2.length) :
    crossErr tol o = none ↔ ∀ r, Cross o r → tol ^ 2 < o.uvw r 0 ^ 2 + o.uvw r 1 ^ 2 + o.uvw r 2 ^ 2 := by
  unfold crossErr
  simp only [ite_eq_right_iff, reduceCtorEq, imp_false, List.any_eq_true, rows, List.mem_range, Bool.and_eq_true,
    Bool.not_eq_true', decide_eq_true_eq, not_exists, not_and, not_le]
  constructor
  · intro h r hr
    exact h r (cross_lt hr) ((auto_iff hs (cross_lt hr)).2.2 hr)
  · intro h r hr hc
    exact h r ((auto_iff hs hr).2.1 hc)

/-- When the part about autocorrelations passes. -/
theorem autoUvw_iff {tol : K} {mag : K × K → K} {op : Opts} {o : Obj K} (hs : Shaped o)
    (hw : ∀ s ∈ o.flexId, s ∈ o.spws) :
    (autoUvw tol mag op o).2 = none ↔
      Lengths tol o ∧ (op.autos = true → AutosReal o ∨ (op.fix = true ∧ 0 ∉ o.pols)) := by
  have ha : (rows o).all (fun r => !isAuto o r || [0, 1, 2].all (fun c => decide (|o.uvw r c| ≤ tol))) = true ↔
      ∀ r, Auto o r → ∀ c < 3, |o.uvw r c| ≤ tol := by
    simp only [List.all_eq_true, rows, List.mem_range, Bool.or_eq_true, Bool.not_eq_true', decide_eq_true_eq]
    constructor
    · intro h r hr c hc
      rcases h r (auto_lt hr) with h | h
      · rw [(auto_iff hs.ants (auto_lt hr)).1.2 hr] at h
        simp at h
      · exact h c (by simp; omega)
    · intro h r hr
      by_cases hau : isAuto o r = true
      · right
        intro c hc
        exact h r ((auto_iff hs.ants hr).1.1 hau) c (by simp at hc; omega)
      · left; simpa using hau
  have hb : (autoPart tol mag op o).2 = none ↔
      crossErr tol o = none ∧ (op.autos = true → AutosReal o ∨ (op.fix = true ∧ 0 ∉ o.pols)) := by
    unfold autoPart
    cases hd : o.data with
    | none =>
      have : AutosReal o := fun d h => by rw [hd] at h; simp at h
      simp [this]
    | some d =>
      simp only
      by_cases hau : op.autos = true
      · by_cases him : autoImag o d = true
        · have hnr : ¬ AutosReal o := fun h => by
            rw [(autoImag_iff hs hw hd).2 h] at him
            simp at him
          rw [if_pos (by simp [hau, him])]
          by_cases hfx : op.fix = true
          · rw [if_pos hfx]
            unfold fixAutos
            by_cases hz : 0 ∈ o.pols
            · rw [if_pos (by simpa using hz)]
              simp [hau, hnr, hz]
            · rw [if_neg (by simpa using hz)]
              simp [hau, hfx, hz]
          · rw [if_neg hfx]
            simp [hau, hnr, hfx]
        · rw [if_neg (by simp [him])]
          have : AutosReal o := (autoImag_iff hs hw hd).1 (by simpa using him)
          simp [this]
      · rw [if_neg (by simp [hau])]
        simp [hau]
  unfold autoUvw
  by_cases h : ∀ r, Auto o r → ∀ c < 3, |o.uvw r c| ≤ tol
  · rw [if_pos (ha.2 h), hb, crossErr_iff hs.ants]
    exact ⟨fun ⟨x, y⟩ => ⟨⟨h, x⟩, y⟩, fun ⟨x, y⟩ => ⟨x.cross, y⟩⟩
  · rw [if_neg (fun e => h (ha.1 e))]
    simp only [reduceCtorEq, false_iff, not_and]
    exact fun x => absurd x.autos h

section

theorem flipped_near {rtol atol : K} {expd : Nat → Nat → K} {o : Obj K} :
    Near rtol atol expd (flipped o) 1 ↔ Near rtol atol expd o (-1) := by
  unfold Near
  refine forall_congr' fun r => imp_congr_right fun _ => forall_congr' fun c => imp_congr_right fun _ => ?_
  simp only [flipped, abs_neg]
  rw [show (1 : K) * expd r c - -o.uvw r c = -(-1 * expd r c - o.uvw r c) by ring, abs_neg]

theorem flipped_lengths {tol : K} {o : Obj K} : Lengths tol (flipped o) ↔ Lengths tol o := by
  constructor
  · rintro ⟨h1, h2⟩
    refine ⟨fun r hr c hc => ?_, fun r hr => ?_⟩
    · have := h1 r hr c hc
      simpa only [flipped, abs_neg] using this
    · have := h2 r hr
      simpa only [flipped, neg_sq] using this
  · rintro ⟨h1, h2⟩
    refine ⟨fun r hr c hc => ?_, fun r hr => ?_⟩
    · have := h1 r hr c hc
      simpa only [flipped, abs_neg] using this
    · have := h2 r hr
      simpa only [flipped, neg_sq] using this

omit [LinearOrder K] in
theorem flipped_real {o : Obj K} : AutosReal (flipped o) ↔ AutosReal o := by
  constructor
  · intro h d hd r f p q hr hf hp hq hre
    have := h (fun r f p => ((d r f p).1, -(d r f p).2)) (by simp [flipped, hd]) r f p q hr hf hp hq hre
    simpa using this
  · intro h d hd r f p q hr hf hp hq hre
    cases hod : o.data with
    | none => simp [flipped, hod] at hd
    | some d0 =>
      simp only [flipped, hod, Option.map_some, Option.some.injEq] at hd
      subst hd
      have := h d0 hod r f p q hr hf hp hq hre
      simpa using this

omit [LinearOrder K] in
theorem flipped_shaped {o : Obj K} (h : Shaped o) : Shaped (flipped o) := ⟨h.ants, h.pols, h.ids, h.flex, h.spws⟩

/-- C145: exactly when the check passes, for all options. -/
theorem passes_iff (base : Bool) (rtol atol tol : K) (expd : Nat → Nat → K) (mag : K × K → K) (op : Opts) (o : Obj K)
    (hs : Shaped o) :
    (check base rtol atol tol expd mag op o).2 = none ↔
      base = true ∧ Meta o ∧ (op.accept = true →
        (Near rtol atol expd o 1 ∨ (op.flip = true ∧ Near rtol atol expd o (-1) ∧ o.data.isSome) ∨
          (¬ (op.flip = true ∧ Near rtol atol expd o (-1)) ∧ op.strict = false)) ∧
        Lengths tol o ∧ (op.autos = true → AutosReal o ∨ (op.fix = true ∧ 0 ∉ o.pols))) := by
  unfold check
  cases base with
  | false => simp
  | true =>
    simp only [Bool.not_true, Bool.false_eq_true, if_false, true_and]
    cases hm : metaErr o with
    | some e =>
      have : ¬ Meta o := fun h => by rw [(meta_iff o).2 h] at hm; simp at hm
      simp [this]
    | none =>
      have hM := (meta_iff o).1 hm
      simp only [hM, true_and]
      by_cases hac : op.accept = true
      · simp only [hac, Bool.not_true, Bool.false_eq_true, if_false, true_imp_iff]
        by_cases h1 : Near rtol atol expd o 1
        · rw [if_pos (near_iff.2 h1), autoUvw_iff hs hM.spw]
          simp [h1]
        · rw [if_neg (fun e => h1 (near_iff.1 e))]
          by_cases h2 : op.flip = true ∧ Near rtol atol expd o (-1)
          · rw [if_pos (by simp only [Bool.and_eq_true]; exact ⟨h2.1, near_iff.2 h2.2⟩)]
            cases hd : o.data with
            | none => simp [h1, h2]
            | some d =>
              simp only
              rw [autoUvw_iff (flipped_shaped hs) hM.spw, flipped_lengths, flipped_real]
              simp only [h1, h2, true_and, Option.isSome_some, not_true, false_and, or_false, false_or]
              rfl
          · rw [if_neg (by simp only [Bool.and_eq_true]; exact fun e => h2 ⟨e.1, near_iff.1 e.2⟩)]
            by_cases h3 : op.strict = true
            · rw [if_pos h3]
              simp only [reduceCtorEq, h1, h3, false_or, false_iff, not_and]
              rintro (h | h)
              · exact absurd ⟨h.1, h.2.1⟩ h2
              · simp at h
            · rw [if_neg h3, autoUvw_iff hs hM.spw]
              have h3' : op.strict = false := by simpa using h3
              simp only [h1, h2, h3', not_false_eq_true, and_self, or_true, true_and]
      · simp [hac]

end

/-- C147: nothing changes unless it is asked for. -/
theorem unchanged (base : Bool) (rtol atol tol : K) (expd : Nat → Nat → K) (mag : K × K → K) (op : Opts) (o : Obj K)
    (hf : op.flip = false) (hx : op.fix = false) : (check base rtol atol tol expd mag op o).1 = o := by
  have ha : (autoUvw tol mag op o).1 = o := by
    unfold autoUvw
    split
    · unfold autoPart
      split
      · rfl
      · rw [hx]
        split <;> rfl
    · rfl
  unfold check
  split
  · rfl
  split
  · rfl
  split
  · rfl
  split
  · exact ha
  rw [hf]
  simp only [Bool.false_and, Bool.false_eq_true, if_false]
  split
  · rfl
  · exact ha

/-- The object after the part about autocorrelations. -/
theorem autoUvw_out {tol : K} {mag : K × K → K} {op : Opts} {o : Obj K} (hs : Shaped o)
    (hw : ∀ s ∈ o.flexId, s ∈ o.spws) (h : (autoUvw tol mag op o).2 = none) :
    ((op.autos = false ∨ AutosReal o) ∧ (autoUvw tol mag op o).1 = o) ∨
    (op.autos = true ∧ op.fix = true ∧ ¬ AutosReal o ∧ 0 ∉ o.pols ∧ ∃ d, o.data = some d ∧ (autoUvw tol mag op o).1 =
      { o with data := some (fun r f p => if isAuto o r && realPol (o.pols.getD p 0) then (mag (d r f p), 0) else d r f p) }) := by
  unfold autoUvw at h ⊢
  split at h
  · rename_i h1
    rw [if_pos h1]
    unfold autoPart at h ⊢
    cases hd : o.data with
    | none => exact Or.inl ⟨Or.inr (fun d h => by rw [hd] at h; simp at h), rfl⟩
    | some d =>
      simp only [hd] at h ⊢
      by_cases hc : (op.autos && autoImag o d) = true
      · rw [if_pos hc] at h ⊢
        simp only [Bool.and_eq_true] at hc
        by_cases hfx : op.fix = true
        · rw [if_pos hfx] at h ⊢
          unfold fixAutos at h ⊢
          by_cases hz : (o.pols.any (fun p => p == 0)) = true
          · rw [if_pos hz] at h
            simp at h
          · rw [if_neg hz]
            refine Or.inr ⟨hc.1, hfx, ?_, by simpa using hz, d, rfl, rfl⟩
            intro hr
            rw [(autoImag_iff hs hw hd).2 hr] at hc
            simp at hc
        · rw [if_neg hfx] at h
          simp at h
      · rw [if_neg hc]
        simp only [Bool.and_eq_true, not_and, Bool.not_eq_true] at hc
        left
        refine ⟨?_, rfl⟩
        cases ha : op.autos with
        | false => exact Or.inl rfl
        | true => exact Or.inr ((autoImag_iff hs hw hd).1 (hc ha))
  · simp at h

/-- Visibilities with the opposite sign of the phase, if that is asked for. -/
def turn (b : Bool) (z : K × K) : K × K := if b then (z.1, -z.2) else z

/-- What a check that passes makes of the object, with the absolute values as they are computed.  Baseline vectors and visibilities are turned if that is
allowed and only the opposite vectors fit; after that, autocorrelations are replaced by their absolute values if that is
asked for and one is not real, where they should be real.  Everything else stays. -/
theorem passed_raw (base : Bool) (rtol atol tol : K) (expd : Nat → Nat → K) (mag : K × K → K) (op : Opts) (o o' : Obj K)
    (hs : Shaped o)
    (h : check base rtol atol tol expd mag op o = (o', none)) :
    ∃ turned fixed : Bool,
      (turned = true ↔ op.accept = true ∧ op.flip = true ∧ ¬ Near rtol atol expd o 1 ∧ Near rtol atol expd o (-1)) ∧
      (fixed = true ↔ op.accept = true ∧ op.autos = true ∧ op.fix = true ∧ ¬ AutosReal o) ∧
      o' = { o with uvw := o'.uvw, data := o'.data } ∧
      (∀ r c, o'.uvw r c = if turned then -o.uvw r c else o.uvw r c) ∧
      (o.data = none → o'.data = none) ∧
      (∀ d, o.data = some d → ∃ d', o'.data = some d' ∧ ∀ r f p,
        (¬ (fixed = true ∧ Auto o r ∧ ∃ q, o.pols[p]? = some q ∧ RealPol q) → (fixed = true → r < o.ant1.length) →
          d' r f p = turn turned (d r f p)) ∧
        (fixed = true → Auto o r → (∃ q, o.pols[p]? = some q ∧ RealPol q) →
          d' r f p = (mag (turn turned (d r f p)), 0))) ∧
      (fixed = true → o.flexPol = none) := by
  have key : ∀ (b : Bool) (u : Obj K), u = (if b then flipped o else o) → Meta o → (autoUvw tol mag op u).2 = none →
      op.accept = true →
      ∃ fixed : Bool, (fixed = true ↔ op.accept = true ∧ op.autos = true ∧ op.fix = true ∧ ¬ AutosReal o) ∧
      (autoUvw tol mag op u).1 = { o with uvw := (autoUvw tol mag op u).1.uvw, data := (autoUvw tol mag op u).1.data } ∧
      (∀ r c, (autoUvw tol mag op u).1.uvw r c = if b then -o.uvw r c else o.uvw r c) ∧
      (o.data = none → (autoUvw tol mag op u).1.data = none) ∧
      (∀ d, o.data = some d → ∃ d', (autoUvw tol mag op u).1.data = some d' ∧ ∀ r f p,
        (¬ (fixed = true ∧ Auto o r ∧ ∃ q, o.pols[p]? = some q ∧ RealPol q) → (fixed = true → r < o.ant1.length) →
          d' r f p = turn b (d r f p)) ∧
        (fixed = true → Auto o r → (∃ q, o.pols[p]? = some q ∧ RealPol q) →
          d' r f p = (mag (turn b (d r f p)), 0))) ∧
      (fixed = true → o.flexPol = none) := by
    intro b u hu hM hn hac
    have hus : Shaped u := by subst hu; cases b <;> [exact hs; exact flipped_shaped hs]
    have huw : ∀ s ∈ u.flexId, s ∈ u.spws := by subst hu; cases b <;> exact hM.spw
    have hur : AutosReal u ↔ AutosReal o := by subst hu; cases b <;> [exact Iff.rfl; exact flipped_real]
    have hup : u.pols = o.pols := by subst hu; cases b <;> rfl
    have hua : ∀ r, isAuto u r = isAuto o r := by subst hu; cases b <;> exact fun _ => rfl
    have huu : ∀ r c, u.uvw r c = if b then -o.uvw r c else o.uvw r c := by subst hu; cases b <;> exact fun _ _ => rfl
    have hud : u.data = o.data.map (fun d r f p => turn b (d r f p)) := by
      subst hu
      cases b
      · show o.data = _
        cases o.data <;> rfl
      · rfl
    have hue : ∀ w x, { u with uvw := w, data := x } = { o with uvw := w, data := x } := by
      subst hu; cases b <;> exact fun _ _ => rfl
    rcases autoUvw_out hus huw hn with ⟨h1, h2⟩ | ⟨h1, h2, h3, h4, d, h5, h6⟩
    · refine ⟨false, ?_, ?_, ?_, ?_, ?_, by simp⟩
      · rw [hur] at h1
        simp only [Bool.false_eq_true, false_iff, not_and, not_not]
        rintro - ha -
        rcases h1 with h1 | h1
        · rw [ha] at h1; simp at h1
        · exact h1
      · rw [h2]
        exact hue u.uvw u.data
      · rw [h2]; exact huu
      · intro hd
        rw [h2, hud, hd]; rfl
      · intro d hd
        rw [h2, hud, hd]
        exact ⟨_, rfl, fun r f p => ⟨fun _ _ => rfl, by simp⟩⟩
    · rw [hur] at h3
      rw [hup] at h4
      refine ⟨true, ?_, ?_, ?_, ?_, ?_, ?_⟩
      · simp [hac, h1, h2, h3]
      · rw [h6]
        exact hue u.uvw _
      · rw [h6]; exact huu
      · intro hd
        rw [hud, hd] at h5
        simp at h5
      · intro d0 hd
        rw [hud, hd, Option.map_some, Option.some.injEq] at h5
        subst h5
        rw [h6]
        refine ⟨_, rfl, fun r f p => ⟨?_, ?_⟩⟩
        · intro hno hr
          have hr := hr rfl
          rw [if_neg]
          rw [hua, hup]
          intro hc
          simp only [Bool.and_eq_true] at hc
          refine hno ⟨rfl, (auto_iff hs.ants hr).1.1 hc.1, ?_⟩
          cases hp : o.pols[p]? with
          | none =>
            rw [List.getD_eq_getElem?_getD, hp] at hc
            exact absurd hc.2 (by decide)
          | some q =>
            rw [List.getD_eq_getElem?_getD, hp] at hc
            exact ⟨q, rfl, (realPol_iff q).1 hc.2⟩
        · rintro - hau ⟨q, hq, hre⟩
          rw [if_pos]
          rw [hua, hup, Bool.and_eq_true, List.getD_eq_getElem?_getD, hq]
          exact ⟨(auto_iff hs.ants (auto_lt hau)).1.2 hau, (realPol_iff q).2 hre⟩
      · intro _
        cases hfl : o.flexPol with
        | none => rfl
        | some l =>
          exfalso
          obtain ⟨hn1, hz⟩ := hM.flex l hfl
          have : 0 < o.pols.length := by rw [hs.pols, hn1]; exact Nat.one_pos
          obtain ⟨p, hp⟩ := List.exists_mem_of_length_pos this
          rw [hz p hp] at hp
          exact h4 hp
  unfold check at h
  cases base with
  | false => simp at h
  | true =>
    simp only [Bool.not_true, Bool.false_eq_true, if_false] at h
    cases hm : metaErr o with
    | some e => rw [hm] at h; simp at h
    | none =>
      have hM := (meta_iff o).1 hm
      rw [hm] at h
      simp only at h
      by_cases hac : op.accept = true
      · simp only [hac, Bool.not_true, Bool.false_eq_true, if_false] at h
        by_cases h1 : Near rtol atol expd o 1
        · rw [if_pos (near_iff.2 h1)] at h
          obtain ⟨fixed, k1, k2⟩ := key false o rfl hM (by rw [h]) hac
          rw [h] at k2
          exact ⟨false, fixed, by simp [h1], k1, k2⟩
        · rw [if_neg (fun e => h1 (near_iff.1 e))] at h
          by_cases h2 : op.flip = true ∧ Near rtol atol expd o (-1)
          · rw [if_pos (by simp only [Bool.and_eq_true]; exact ⟨h2.1, near_iff.2 h2.2⟩)] at h
            cases hd : o.data with
            | none => rw [hd] at h; simp at h
            | some d =>
              rw [hd] at h
              simp only at h
              obtain ⟨fixed, k1, k2⟩ := key true (flipped o) rfl hM (by rw [h]) hac
              rw [h] at k2
              rw [← hd]
              exact ⟨true, fixed, by simp [h1, h2, hac], k1, k2⟩
          · rw [if_neg (by simp only [Bool.and_eq_true]; exact fun e => h2 ⟨e.1, near_iff.1 e.2⟩)] at h
            by_cases h3 : op.strict = true
            · rw [if_pos h3] at h
              simp at h
            · rw [if_neg h3] at h
              obtain ⟨fixed, k1, k2⟩ := key false o rfl hM (by rw [h]) hac
              rw [h] at k2
              refine ⟨false, fixed, ?_, k1, k2⟩
              simp only [Bool.false_eq_true, hac, true_and, false_iff, not_and]
              exact fun a _ b => h2 ⟨a, b⟩
      · simp only [hac, Bool.not_false, if_true, Prod.mk.injEq, and_true] at h
        subst h
        exact ⟨false, false, by simp [hac], by simp [hac], rfl, by simp, by simp,
          fun d hd => ⟨d, hd, fun r f p => ⟨fun _ _ => rfl, by simp⟩⟩, by simp⟩

/-- C146, C147: what a check that passes makes of the object.  Baseline vectors and visibilities are turned if that is
allowed and only the opposite vectors fit; after that, autocorrelations are replaced by their absolute values if that is
asked for and one is not real, where they should be real.  Everything else stays. -/
theorem passed (base : Bool) (rtol atol tol : K) (expd : Nat → Nat → K) (mag : K × K → K) (op : Opts) (o o' : Obj K)
    (hs : Shaped o) (hmag : ∀ d, o.data = some d → ∀ r f p b, IsMag (mag (turn b (d r f p))) (d r f p))
    (h : check base rtol atol tol expd mag op o = (o', none)) :
    ∃ turned fixed : Bool,
      (turned = true ↔ op.accept = true ∧ op.flip = true ∧ ¬ Near rtol atol expd o 1 ∧ Near rtol atol expd o (-1)) ∧
      (fixed = true ↔ op.accept = true ∧ op.autos = true ∧ op.fix = true ∧ ¬ AutosReal o) ∧
      o' = { o with uvw := o'.uvw, data := o'.data } ∧
      (∀ r c, o'.uvw r c = if turned then -o.uvw r c else o.uvw r c) ∧
      (o.data = none → o'.data = none) ∧
      (∀ d, o.data = some d → ∃ d', o'.data = some d' ∧ ∀ r < o.ant1.length, ∀ f p,
        (¬ (fixed = true ∧ Auto o r ∧ ∃ q, o.pols[p]? = some q ∧ RealPol q) → d' r f p = turn turned (d r f p)) ∧
        (fixed = true → Auto o r → (∃ q, o.pols[p]? = some q ∧ RealPol q) →
          (d' r f p).2 = 0 ∧ IsMag (d' r f p).1 (d r f p))) := by
  obtain ⟨turned, fixed, h1, h2, h3, h4, h5, h6, -⟩ := passed_raw base rtol atol tol expd mag op o o' hs h
  refine ⟨turned, fixed, h1, h2, h3, h4, h5, fun d hd => ?_⟩
  obtain ⟨d', e1, e2⟩ := h6 d hd
  refine ⟨d', e1, fun r hr f p => ⟨fun hn => (e2 r f p).1 hn (fun _ => hr), fun a b c => ?_⟩⟩
  rw [(e2 r f p).2 a b c]
  exact ⟨rfl, hmag d hd r f p turned⟩

/-- C146: after a check of the autocorrelations that passes, those that should be real are. -/
theorem real_after (base : Bool) (rtol atol tol : K) (expd : Nat → Nat → K) (mag : K × K → K) (op : Opts) (o o' : Obj K)
    (hs : Shaped o) (h : check base rtol atol tol expd mag op o = (o', none)) (ha : op.accept = true)
    (hc : op.autos = true) : AutosReal o' := by
  obtain ⟨turned, fixed, h1, h2, h3, h4, h5, h6, h7⟩ := passed_raw base rtol atol tol expd mag op o o' hs h
  intro d' hd' r f p q hr hf hp hq hre
  cases hd : o.data with
  | none => rw [h5 hd] at hd'; simp at hd'
  | some d =>
    obtain ⟨d2, e1, e2⟩ := h6 d hd
    rw [e1] at hd'
    obtain rfl := Option.some.inj hd'
    rw [h3] at hr hf hp hq
    have hr' : Auto o r := hr
    by_cases hfix : fixed = true
    · have hq' : o.pols[p]? = some q := by
        have := h7 hfix
        simpa only [PolAt, this] using hq
      rw [(e2 r f p).2 hfix hr' ⟨q, hq', hre⟩]
    · have hreal : AutosReal o := by
        by_contra hno
        have hp2 : (check base rtol atol tol expd mag op o).2 = none := by rw [h]
        -- it passes only if autocorrelations are real or replaced
        have : op.fix = true := by
          by_contra hfx
          have hx : op.fix = false := by simpa using hfx
          have key : ∀ u : Obj K, (autoUvw tol mag op u).2 = none → Shaped u → (∀ s ∈ u.flexId, s ∈ u.spws) →
              AutosReal u := by
            intro u hu hus huw
            rcases autoUvw_out hus huw hu with ⟨h1, -⟩ | ⟨-, h2, -⟩
            · rcases h1 with h1 | h1
              · rw [hc] at h1; simp at h1
              · exact h1
            · rw [hx] at h2; simp at h2
          unfold check at hp2
          split at hp2
          · simp at hp2
          split at hp2
          · simp at hp2
          rename_i hm
          have hM := (meta_iff o).1 hm
          simp only [ha, Bool.not_true, Bool.false_eq_true, if_false] at hp2
          split at hp2
          · exact hno (key o hp2 hs hM.spw)
          split at hp2
          · split at hp2
            · simp at hp2
            · exact hno (flipped_real.1 (key (flipped o) hp2 (flipped_shaped hs) hM.spw))
          split at hp2
          · simp at hp2
          · exact hno (key o hp2 hs hM.spw)
        exact hfix (h2.2 ⟨ha, hc, this, hno⟩)
      rw [(e2 r f p).1 (fun hx => hfix hx.1) (fun hx => absurd hx hfix)]
      have := hreal d hd r f p q hr' hf hp hq hre
      cases turned <;> simp [turn, this]

/-- C147: a second check passes and changes nothing. -/
theorem again (base : Bool) (rtol atol tol : K) (expd : Nat → Nat → K) (mag : K × K → K) (op : Opts) (o o' : Obj K)
    (hs : Shaped o) (h : check base rtol atol tol expd mag op o = (o', none)) :
    check base rtol atol tol expd mag op o' = (o', none) := by
  have hreal := real_after base rtol atol tol expd mag op o o' hs h
  have hp := (passes_iff base rtol atol tol expd mag op o hs).1 (by rw [h])
  obtain ⟨turned, fixed, h1, h2, h3, h4, h5, h6, h7⟩ := passed_raw base rtol atol tol expd mag op o o' hs h
  obtain ⟨hb, hM, hr⟩ := hp
  have hM' : Meta o' := by
    rw [h3]
    exact ⟨hM.conv, hM.spw, hM.faster, hM.nants, hM.nbls, hM.ntimes, hM.centers, hM.flex, hM.noFlex, hM.ant1, hM.ant2⟩
  have hs' : Shaped o' := by
    rw [h3]
    exact ⟨hs.ants, hs.pols, hs.ids, hs.flex, hs.spws⟩
  have huvw : ∀ sign, (turned = false → (Near rtol atol expd o' sign ↔ Near rtol atol expd o sign)) ∧
      (turned = true → Near rtol atol expd o' 1) := by
    intro sign
    have hl : o'.ant1.length = o.ant1.length := by rw [h3]
    refine ⟨fun ht => ?_, fun ht => ?_⟩
    · unfold Near
      rw [hl]
      simp only [h4, ht, Bool.false_eq_true, if_false]
    · have := flipped_near.2 (h1.1 ht).2.2.2
      unfold Near at this ⊢
      rw [hl]
      simp only [h4, ht, if_true]
      exact this
  have hlen : op.accept = true → Lengths tol o' := by
    intro ha
    have hL := (hr ha).2.1
    have e : Lengths tol o' ↔ Lengths tol (if turned then flipped o else o) := by
      have hu : o'.uvw = (if turned then flipped o else o).uvw := by
        funext r c
        rw [h4]
        cases turned <;> rfl
      have ha1 : ∀ r, Auto o' r ↔ Auto (if turned then flipped o else o) r := by
        intro r; rw [h3]; cases turned <;> rfl
      have ha2 : ∀ r, Cross o' r ↔ Cross (if turned then flipped o else o) r := by
        intro r; rw [h3]; cases turned <;> rfl
      constructor
      · rintro ⟨x, y⟩
        exact ⟨fun r hr => by rw [← hu]; exact x r ((ha1 r).2 hr), fun r hr => by rw [← hu]; exact y r ((ha2 r).2 hr)⟩
      · rintro ⟨x, y⟩
        exact ⟨fun r hr => by rw [hu]; exact x r ((ha1 r).1 hr), fun r hr => by rw [hu]; exact y r ((ha2 r).1 hr)⟩
    rw [e]
    cases turned
    · exact hL
    · exact flipped_lengths.2 hL
  have hpass : (check base rtol atol tol expd mag op o').2 = none := by
    rw [passes_iff base rtol atol tol expd mag op o' hs']
    refine ⟨hb, hM', fun ha => ⟨?_, hlen ha, fun hc => Or.inl (hreal ha hc)⟩⟩
    cases ht : turned with
    | true => exact Or.inl ((huvw 1).2 ht)
    | false =>
      rw [(huvw 1).1 ht, (huvw (-1)).1 ht]
      rcases (hr ha).1 with x | x | x
      · exact Or.inl x
      · by_cases hn : Near rtol atol expd o 1
        · exact Or.inl hn
        · have := h1.2 ⟨ha, x.1, hn, x.2.1⟩
          rw [ht] at this
          simp at this
      · exact Or.inr (Or.inr x)
  obtain ⟨o2, ho2⟩ : ∃ o2, check base rtol atol tol expd mag op o' = (o2, none) := ⟨_, Prod.ext rfl hpass⟩
  obtain ⟨t2, f2, k1, k2, k3, k4, k5, k6, -⟩ := passed_raw base rtol atol tol expd mag op o' o2 hs' ho2
  have ht2 : t2 = false := by
    by_contra hc
    obtain ⟨a, b, c, d⟩ := k1.1 (by simpa using hc)
    cases ht : turned with
    | true => exact c ((huvw 1).2 ht)
    | false =>
      rw [(huvw 1).1 ht] at c
      rw [(huvw (-1)).1 ht] at d
      have := h1.2 ⟨a, b, c, d⟩
      rw [ht] at this
      simp at this
  have hf2 : f2 = false := by
    by_contra hc
    obtain ⟨a, b, c, d⟩ := k2.1 (by simpa using hc)
    exact d (hreal a b)
  have : o2 = o' := by
    rw [k3]
    have e1 : o2.uvw = o'.uvw := by
      funext r c
      rw [k4, ht2]
      simp
    have e2 : o2.data = o'.data := by
      cases hd : o'.data with
      | none => exact k5 hd
      | some d =>
        obtain ⟨d', x1, x2⟩ := k6 d hd
        rw [x1]
        congr 1
        funext r f p
        rw [(x2 r f p).1 (by simp [hf2]) (by simp [hf2]), ht2]
        rfl
    rw [e1, e2]
  rw [ho2, this]

end Verif.Check
