import Verif.Conj.Lemmas
import Verif.AntPair.Props

/-!
C13: `conjugate_bls` reverses exactly the requested rows and preserves the physics of every record.
-/
namespace Verif.Conj
open Verif.Np Verif.Baseline
open Verif.Pol (conjNum reorderConjPols)

variable {R C : Type} [AddCommGroup R] [LinearOrder R] [IsOrderedAddMonoid R]

omit [IsOrderedAddMonoid R] in
/-- What a successful call did. -/
theorem conj_inv {cj : C → C} {o o' : Obj R C} {c : Convention} {ue : Bool} {tol : R}
    (h : conjugateBls cj o c ue tol = .ok o') :
    (∀ l, c = .index l → ∀ i ∈ l, i < o.ant1.length) ∧
    ((indexArray o c ue tol = [] ∧ o' = o) ∨
    ∃ newPol new, reorderConjPols o.pols = some newPol ∧ indexArray o c ue tol ≠ [] ∧
      antnumsToBaseline (some o.nants) false false
        ((indexArray o c ue tol).map (fun i => ((o'.ant1[i]?.getD 0 : Nat) : Int)))
        ((indexArray o c ue tol).map (fun i => ((o'.ant2[i]?.getD 0 : Nat) : Int))) = .ok new ∧
      o'.uvw = updAt (indexArray o c ue tol) (fun _ x => neg3 x) o.uvw ∧
      o'.data = o.data.map (updAt (indexArray o c ue tol) (fun _ row => row.map (conjRow cj newPol))) ∧
      o'.ant1 = updAt (indexArray o c ue tol) (fun i _ => o.ant2[i]?.getD 0) o.ant1 ∧
      o'.ant2 = updAt (indexArray o c ue tol) (fun i _ => o.ant1[i]?.getD 0) o.ant2 ∧
      o'.bl = updAt (indexArray o c ue tol) (fun i b =>
        (((indexArray o c ue tol).zip new).find? (fun p => p.1 == i)).elim b Prod.snd) o.bl ∧
      o'.pols = o.pols ∧ o'.nants = o.nants ∧ o'.enu = o.enu ∧ o'.flags = o.flags ∧ o'.nsamples = o.nsamples) := by
  unfold conjugateBls at h
  dsimp only at h
  split at h
  · simp at h
  · rename_i hbad
    refine ⟨?_, ?_⟩
    · intro l hl i hi
      subst hl
      simp only [badIndex, Bool.or_eq_true, List.any_eq_true, decide_eq_true_eq, not_or, not_exists, not_and] at hbad
      have := hbad.2 i hi
      omega
    split at h
    · rename_i he
      simp only [Except.ok.injEq] at h
      left; exact ⟨by simpa using he, h.symm⟩
    · rename_i he
      split at h
      · simp at h
      · rename_i newPol hnp
        split at h
        · simp at h
        · rename_i new hnew
          simp only [Except.ok.injEq] at h
          subst h
          right
          exact ⟨newPol, new, hnp, by simpa using he, hnew, rfl, rfl, rfl, rfl, rfl, rfl, rfl, rfl, rfl, rfl⟩

omit [IsOrderedAddMonoid R] in
/-- C13: every row that violates the convention (or is listed) is reversed, every other row is untouched. -/
theorem conjugate_rows (cj : C → C) (o o' : Obj R C) (c : Convention) (ue : Bool) (tol : R) (hs : Shaped o)
    (h : conjugateBls cj o c ue tol = .ok o') (i : Nat) (hi : i < o.ant1.length) :
    (Violates o ue tol i c → RowReversed cj o o' i) ∧ (¬ Violates o ue tol i c → RowSame o o' i) := by
  obtain ⟨h1, h2, h3, h4, h5⟩ := hs
  rcases (conj_inv h).2 with ⟨hnil, rfl⟩ | ⟨newPol, new, hnp, hne, _, huvw, hdata, ha1, ha2, hbl, hpols, _⟩
  · constructor
    · intro hv
      have : i ∈ indexArray o' c ue tol := by
        simp only [indexArray, List.mem_filter, List.mem_range]
        exact ⟨hi, (selected_iff _ _ _ _ _).2 hv⟩
      rw [hnil] at this; simp at this
    · intro _
      exact ⟨rfl, rfl, rfl, rfl, fun d hd => ⟨d, hd, rfl⟩⟩
  · have hmem : i ∈ indexArray o c ue tol ↔ Violates o ue tol i c := by
      simp only [indexArray, List.mem_filter, List.mem_range, hi, true_and]
      exact selected_iff _ _ _ _ _
    obtain ⟨q1, q2, q3, q4⟩ := Verif.Pol.reorder_conj_correct o.pols newPol hnp h4
    constructor
    · intro hv
      have hv := hmem.2 hv
      have hi2 : i < o.ant2.length := by omega
      refine ⟨?_, ?_, ?_, ?_⟩
      · rw [ha1, updAt_get, if_pos hv, List.getElem?_eq_getElem hi, List.getElem?_eq_getElem hi2]; rfl
      · rw [ha2, updAt_get, if_pos hv, List.getElem?_eq_getElem hi, List.getElem?_eq_getElem hi2]; rfl
      · intro u v w hu
        rw [huvw, updAt_get, if_pos hv, hu]; rfl
      · intro d hd
        refine ⟨_, by rw [hdata, hd]; rfl, ?_⟩
        intro f k k' p q hp hq hpq
        rw [at3_upd _ _ _ _ _ _ hv]
        rw [hpols] at hq
        have hk : k < newPol.length := by
          rw [q1]; exact (List.getElem?_eq_some_iff.1 hp).1
        obtain ⟨p', q', e1, e2, e3⟩ := q2 k _ (List.getElem?_eq_getElem hk)
        rw [hp] at e1
        simp only [Option.some.injEq] at e1
        subst e1
        rw [hpq] at e3
        simp only [Option.some.injEq] at e3
        subst e3
        have hk' : k' = newPol[k] := by
          have hlt : k' < o.pols.length := (List.getElem?_eq_some_iff.1 hq).1
          exact (List.getElem?_inj hlt h4).1 (by rw [hq, e2])
        unfold at3
        cases hr : d[i]? with
        | none => rfl
        | some r =>
          cases hf : r[f]? with
          | none => simp [hf]
          | some ch =>
            simp only [Option.bind_some, hf, Option.map_some]
            have hlen : ch.length = o.pols.length :=
              (h5 d hd).2 r (List.mem_of_getElem? hr) ch (List.mem_of_getElem? hf)
            exact conjRow_get cj newPol ch q3 (by rw [q1, hlen]) k k'
              (by rw [hk', List.getElem?_eq_getElem hk])
    · intro hv
      have hv : ¬ i ∈ indexArray o c ue tol := fun h => hv (hmem.1 h)
      refine ⟨?_, ?_, ?_, ?_, ?_⟩
      · rw [ha1, updAt_get, if_neg hv]
      · rw [ha2, updAt_get, if_neg hv]
      · rw [hbl, updAt_get, if_neg hv]
      · rw [huvw, updAt_get, if_neg hv]
      · intro d hd
        exact ⟨_, by rw [hdata, hd]; rfl, by rw [updAt_get, if_neg hv]⟩

omit [IsOrderedAddMonoid R] in
theorem conj_shapes {cj : C → C} {o o' : Obj R C} {c : Convention} {ue : Bool} {tol : R} (hs : Shaped o)
    (h : conjugateBls cj o c ue tol = .ok o') :
    Shaped o' ∧ o'.ant1.length = o.ant1.length ∧ o'.pols = o.pols ∧ o'.enu = o.enu ∧
      (o.data = none → o'.data = none) ∧ ∀ d, o.data = some d → ∃ d', o'.data = some d' := by
  obtain ⟨h1, h2, h3, h4, h5⟩ := hs
  rcases (conj_inv h).2 with ⟨hnil, rfl⟩ | ⟨newPol, new, hnp, hne, _, huvw, hdata, ha1, ha2, hbl, hpols, _, henu, _⟩
  · exact ⟨⟨h1, h2, h3, h4, h5⟩, rfl, rfl, rfl, id, fun d hd => ⟨d, hd⟩⟩
  · refine ⟨⟨?_, ?_, ?_, ?_, ?_⟩, ?_, hpols, henu, ?_, ?_⟩
    · rw [ha1, ha2, updAt_length, updAt_length, h1]
    · rw [ha1, hbl, updAt_length, updAt_length, h2]
    · rw [ha1, huvw, updAt_length, updAt_length, h3]
    · rw [hpols]; exact h4
    · intro d' hd'
      cases hd : o.data with
      | none => rw [hd] at hdata; rw [hdata] at hd'; simp at hd'
      | some d =>
        rw [hd] at hdata
        rw [hdata] at hd'
        simp only [Option.map_some, Option.some.injEq] at hd'
        subst hd'
        obtain ⟨l1, l2⟩ := h5 d hd
        rw [ha1, updAt_length, updAt_length, hpols]
        refine ⟨l1, ?_⟩
        intro r hr ch hch
        obtain ⟨j, hj⟩ := List.mem_iff_getElem?.1 hr
        rw [updAt_get] at hj
        split at hj
        · cases hdj : d[j]? with
          | none => rw [hdj] at hj; simp at hj
          | some r0 =>
            rw [hdj] at hj
            simp only [Option.map_some, Option.some.injEq] at hj
            subst hj
            obtain ⟨c0, hc0, rfl⟩ := List.mem_map.1 hch
            rw [conjRow_length]
            exact l2 r0 (List.mem_of_getElem? hdj) c0 hc0
        · exact l2 r (List.mem_of_getElem? hj) ch hch
    · rw [ha1, updAt_length]
    · intro hd; rw [hdata, hd]; rfl
    · intro d hd; rw [hdata, hd]; exact ⟨_, rfl⟩

omit [IsOrderedAddMonoid R] in
/-- Coordinates used to decide the convention: negated on reversed rows, unchanged elsewhere. -/
theorem uvwUse_after {cj : C → C} {o o' : Obj R C} {c : Convention} {ue : Bool} {tol : R} (hs : Shaped o)
    (h : conjugateBls cj o c ue tol = .ok o') (i : Nat) (hi : i < o.ant1.length) :
    (Violates o ue tol i c → uvwUse o' ue i = neg3 (uvwUse o ue i)) ∧
    (¬ Violates o ue tol i c → uvwUse o' ue i = uvwUse o ue i) := by
  obtain ⟨hrev, hsame⟩ := conjugate_rows cj o o' c ue tol hs h i hi
  have henu := (conj_shapes hs h).2.2.2.1
  have h1 := hs.1
  have h3 := hs.2.2.1
  constructor
  · intro hv
    obtain ⟨e1, e2, e3, _⟩ := hrev hv
    unfold uvwUse
    split
    · rw [e1, e2, henu]
      simp only [neg3]
      refine Prod.ext ?_ (Prod.ext ?_ ?_) <;> simp
    · have hiu : i < o.uvw.length := by omega
      rw [e3 _ _ _ (List.getElem?_eq_getElem hiu), List.getElem?_eq_getElem hiu]
      rfl
  · intro hv
    obtain ⟨e1, e2, _, e3, _⟩ := hsame hv
    unfold uvwUse
    rw [e1, e2, e3, henu]

/-- C13: after a named convention has been applied (with a non-negative tolerance) no row violates it. -/
theorem convention_established (cj : C → C) (o o' : Obj R C) (c : Convention) (ue : Bool) (tol : R)
    (hs : Shaped o) (htol : 0 ≤ tol) (hc : ∀ l, c ≠ .index l) (h : conjugateBls cj o c ue tol = .ok o')
    (i : Nat) (hi : i < o.ant1.length) : ¬ Violates o' ue tol i c := by
  obtain ⟨u1, u2⟩ := uvwUse_after hs h i hi
  obtain ⟨hrev, hsame⟩ := conjugate_rows cj o o' c ue tol hs h i hi
  have neg_flip : ∀ x : R, tol < x → ¬ tol < -x ∧ ¬ |x| ≤ tol := by
    intro x hx
    have hx0 : 0 < x := lt_of_le_of_lt htol hx
    refine ⟨fun h => ?_, fun h => ?_⟩
    · have : -x < 0 := by simpa using hx0
      exact absurd (lt_trans h this) (not_lt.2 htol)
    · exact absurd (lt_of_lt_of_le hx (le_trans (le_abs_self x) h)) (lt_irrefl _)
  have neg_flip' : ∀ x : R, x < -tol → ¬ -x < -tol ∧ ¬ |x| ≤ tol := by
    intro x hx
    have hx' : tol < -x := by rw [← neg_neg tol]; exact neg_lt_neg hx
    obtain ⟨f1, f2⟩ := neg_flip (-x) hx'
    rw [neg_neg] at f1
    rw [abs_neg] at f2
    refine ⟨fun h => f1 (by rw [← neg_neg x, ← neg_neg tol]; exact neg_lt_neg (by simpa using h)), f2⟩
  by_cases hv : Violates o ue tol i c
  · have e := u1 hv
    obtain ⟨e1, e2, _⟩ := hrev hv
    cases c with
    | index l => exact absurd rfl (hc l)
    | ant1LtAnt2 => simp only [Violates] at hv ⊢; rw [e1, e2]; omega
    | ant2LtAnt1 => simp only [Violates] at hv ⊢; rw [e1, e2]; omega
    | uNeg =>
      simp only [Violates, e, neg3, abs_neg] at hv ⊢
      generalize uvwUse o ue i = x at hv
      rcases hv with hv | ⟨ha, hv⟩ | ⟨ha, hb, hv⟩
      · have := neg_flip _ hv; tauto
      · have := neg_flip _ hv
        rintro (h | h | h)
        · exact absurd ha (by have := (neg_flip _ h).2; rwa [abs_neg] at this)
        · tauto
        · tauto
      · have := neg_flip _ hv
        rintro (h | h | h)
        · exact absurd ha (by have := (neg_flip _ h).2; rwa [abs_neg] at this)
        · exact absurd hb (by have := (neg_flip _ h.2).2; rwa [abs_neg] at this)
        · tauto
    | vNeg =>
      simp only [Violates, e, neg3, abs_neg] at hv ⊢
      generalize uvwUse o ue i = x at hv
      rcases hv with hv | ⟨ha, hv⟩ | ⟨ha, hb, hv⟩
      · have := neg_flip _ hv; tauto
      · have := neg_flip _ hv
        rintro (h | h | h)
        · exact absurd ha (by have := (neg_flip _ h).2; rwa [abs_neg] at this)
        · tauto
        · tauto
      · have := neg_flip _ hv
        rintro (h | h | h)
        · exact absurd hb (by have := (neg_flip _ h).2; rwa [abs_neg] at this)
        · exact absurd ha (by have := (neg_flip _ h.2).2; rwa [abs_neg] at this)
        · tauto
    | uPos =>
      simp only [Violates, e, neg3, abs_neg] at hv ⊢
      generalize uvwUse o ue i = x at hv
      rcases hv with hv | ⟨ha, hv⟩ | ⟨ha, hb, hv⟩
      · have := neg_flip' _ hv; tauto
      · have := neg_flip' _ hv
        rintro (h | h | h)
        · exact absurd ha (by have := (neg_flip' _ h).2; rwa [abs_neg] at this)
        · tauto
        · tauto
      · have := neg_flip' _ hv
        rintro (h | h | h)
        · exact absurd ha (by have := (neg_flip' _ h).2; rwa [abs_neg] at this)
        · exact absurd hb (by have := (neg_flip' _ h.2).2; rwa [abs_neg] at this)
        · tauto
    | vPos =>
      simp only [Violates, e, neg3, abs_neg] at hv ⊢
      generalize uvwUse o ue i = x at hv
      rcases hv with hv | ⟨ha, hv⟩ | ⟨ha, hb, hv⟩
      · have := neg_flip' _ hv; tauto
      · have := neg_flip' _ hv
        rintro (h | h | h)
        · exact absurd ha (by have := (neg_flip' _ h).2; rwa [abs_neg] at this)
        · tauto
        · tauto
      · have := neg_flip' _ hv
        rintro (h | h | h)
        · exact absurd hb (by have := (neg_flip' _ h).2; rwa [abs_neg] at this)
        · exact absurd ha (by have := (neg_flip' _ h.2).2; rwa [abs_neg] at this)
        · tauto
  · have e := u2 hv
    obtain ⟨e1, e2, _⟩ := hsame hv
    cases c <;> simp only [Violates] at hv ⊢ <;> first | exact absurd rfl (hc _) | (rw [e]; exact hv) | (rw [e1, e2]; exact hv)

/-- The conjugate of the conjugate of a channel. -/
theorem conjRow_conjRow (cj : C → C) (hcj : ∀ x, cj (cj x) = x) (newPol : List Nat) (row : List C)
    (hinv : ∀ i j : Nat, newPol[i]? = some j → newPol[j]? = some i) (hl : newPol.length = row.length) :
    conjRow cj newPol (conjRow cj newPol row) = row := by
  apply List.ext_getElem?
  intro q
  by_cases hq : q < row.length
  · have hq' : q < newPol.length := by omega
    have e := hinv q _ (List.getElem?_eq_getElem hq')
    rw [conjRow_get cj newPol _ hinv (by rw [conjRow_length]; exact hl) _ q e,
      conjRow_get cj newPol _ hinv hl q _ (List.getElem?_eq_getElem hq')]
    cases row[q]? with
    | none => rfl
    | some x => simp [hcj]
  · rw [List.getElem?_eq_none (by rw [conjRow_length, conjRow_length]; omega),
      List.getElem?_eq_none (by omega)]

omit [IsOrderedAddMonoid R] in
/-- C13: reversing the same listed rows twice restores antennas, coordinates and visibilities. -/
theorem conjugate_twice (cj : C → C) (hcj : ∀ x, cj (cj x) = x) (o o' o'' : Obj R C) (l : List Nat) (ue : Bool)
    (tol : R) (hs : Shaped o) (h : conjugateBls cj o (.index l) ue tol = .ok o')
    (h' : conjugateBls cj o' (.index l) ue tol = .ok o'') :
    o''.ant1 = o.ant1 ∧ o''.ant2 = o.ant2 ∧ o''.uvw = o.uvw ∧ o''.data = o.data ∧ o''.pols = o.pols := by
  obtain ⟨hs', hlen', hp', _⟩ := conj_shapes hs h
  obtain ⟨hs'', hlen'', hp'', _⟩ := conj_shapes hs' h'
  obtain ⟨s1, s2, s3, s4, s5⟩ := hs
  obtain ⟨s1', s2', s3', s4', s5'⟩ := hs'
  have hidx : indexArray o' (.index l) ue tol = indexArray o (.index l) ue tol := by
    unfold indexArray; rw [hlen']; rfl
  rcases (conj_inv h).2 with ⟨hnil, rfl⟩ | ⟨newPol, new, hnp, hne, _, huvw, hdata, ha1, ha2, hbl, hpols, _⟩
  · rcases (conj_inv h').2 with ⟨_, rfl⟩ | ⟨_, _, _, hne, _⟩
    · exact ⟨rfl, rfl, rfl, rfl, rfl⟩
    · exact absurd hnil hne
  · rcases (conj_inv h').2 with ⟨hnil', _⟩ | ⟨newPol', new', hnp', _, _, huvw', hdata', ha1', ha2', _⟩
    · rw [hidx] at hnil'; exact absurd hnil' hne
    · rw [hidx] at huvw' hdata' ha1' ha2'
      rw [hpols, hnp] at hnp'
      simp only [Option.some.injEq] at hnp'
      subst hnp'
      have hmem : ∀ i, i ∈ indexArray o (.index l) ue tol → i < o.ant1.length := by
        intro i hi
        simp only [indexArray, List.mem_filter, List.mem_range] at hi
        exact hi.1
      obtain ⟨q1, _, q3, _⟩ := Verif.Pol.reorder_conj_correct o.pols newPol hnp s4
      refine ⟨?_, ?_, ?_, ?_, by rw [hp'', hp']⟩
      · apply List.ext_getElem?
        intro i
        rw [ha1', updAt_get, ha2, ha1]
        simp only [updAt_get]
        split
        · rename_i hi
          have h1 := hmem i hi
          have h2 : i < o.ant2.length := by omega
          simp [List.getElem?_eq_getElem h1, List.getElem?_eq_getElem h2]
        · rfl
      · apply List.ext_getElem?
        intro i
        rw [ha2', updAt_get, ha2, ha1]
        simp only [updAt_get]
        split
        · rename_i hi
          have h1 := hmem i hi
          have h2 : i < o.ant2.length := by omega
          simp [List.getElem?_eq_getElem h1, List.getElem?_eq_getElem h2]
        · rfl
      · apply List.ext_getElem?
        intro i
        rw [huvw', huvw]
        simp only [updAt_get]
        split
        · cases o.uvw[i]? with
          | none => rfl
          | some x => simp [neg3]
        · rfl
      · rw [hdata', hdata]
        cases hd : o.data with
        | none => rfl
        | some d =>
          simp only [Option.map_some, Option.some.injEq]
          apply List.ext_getElem?
          intro i
          simp only [updAt_get]
          split
          · cases hr : d[i]? with
            | none => rfl
            | some r =>
              simp only [Option.map_some, Option.some.injEq, List.map_map]
              conv_rhs => rw [← List.map_id r]
              apply List.map_congr_left
              intro ch hch
              simp only [Function.comp_apply, id]
              exact conjRow_conjRow cj hcj newPol ch q3
                (by rw [q1]; exact ((s5 d hd).2 r (List.mem_of_getElem? hr) ch hch).symm)
          · rfl

/-- The formula used for a whole array when either there are more than 2048 antennas or all antenna numbers
are below 2048. -/
theorem encode_fixed (n : Nat) (a1 a2 : List Nat) (hn : n ≤ 2147483648) (hne : a1 ≠ []) (hl : a1.length = a2.length)
    (hb : ∀ a ∈ a1 ++ a2, a < 2147483648) (hc : 2048 < n ∨ ∀ a ∈ a1 ++ a2, a < 2048) :
    antnumsToBaseline (some n) false false (a1.map (fun a : Nat => (a : Int))) (a2.map (fun a : Nat => (a : Int))) =
      .ok (List.zipWith (encOne (if 2048 < n then .large else .c2048)) a1 a2) := by
  unfold antnumsToBaseline
  have c1 : ((some n).any (fun n => n > 2147483648)) = false := by simp; omega
  have c2 : ((a1.map (fun a : Nat => (a : Int)) ++ a2.map (fun a : Nat => (a : Int))).any
      (fun a => decide (a ≥ 2147483648))) = false := by
    rw [← List.map_append, List.any_eq_false]
    intro x hx
    obtain ⟨a, ha, rfl⟩ := List.mem_map.1 hx
    have := hb a ha
    simp; omega
  have c3 : ((a1.map (fun a : Nat => (a : Int)) ++ a2.map (fun a : Nat => (a : Int))).any
      (fun a => decide (a < 0))) = false := by
    rw [← List.map_append, List.any_eq_false]
    intro x hx
    obtain ⟨a, ha, rfl⟩ := List.mem_map.1 hx
    simp
  rw [c1, c2, c3]
  simp only [Bool.false_eq_true, if_false]
  rw [natCast_toNat_map, natCast_toNat_map]
  match a1, a2, hl with
  | a :: as, b :: bs, hl =>
    simp only [List.length_cons, Nat.add_right_cancel_iff] at hl
    simp only [encArrays, hl, if_true, Except.ok.injEq]
    congr 2
    unfold pickEnc
    by_cases h : 2048 < n
    · simp [h]
    · have hlt : ∀ x ∈ (a :: as) ++ (b :: bs), x < 2048 := hc.resolve_left h
      have m1 := hlt _ (List.mem_append_left _ (arrayMax_mem a as))
      have m2 := hlt _ (List.mem_append_right _ (arrayMax_mem b bs))
      have : max2 (arrayMax a as) (arrayMax b bs) < 2048 := by unfold max2; split <;> omega
      simp [h, this]

omit [IsOrderedAddMonoid R] in
/-- C13: the baseline numbers follow the antennas.  If they were the numbers of the antenna pairs before the
call they are afterwards, provided a single formula applies to every subset of the rows: more than 2048
antennas, or all antenna numbers below 2048 (`conjugate_numbering_counterexample` shows the condition is
needed). -/
theorem conjugate_numbering (cj : C → C) (o o' : Obj R C) (c : Convention) (ue : Bool) (tol : R) (hs : Shaped o)
    (hn : antnumsToBaseline (some o.nants) false false (o.ant1.map (fun a : Nat => (a : Int)))
      (o.ant2.map (fun a : Nat => (a : Int))) = .ok o.bl)
    (hc : 2048 < o.nants ∨ ∀ a ∈ o.ant1 ++ o.ant2, a < 2048)
    (h : conjugateBls cj o c ue tol = .ok o') :
    antnumsToBaseline (some o'.nants) false false (o'.ant1.map (fun a : Nat => (a : Int)))
      (o'.ant2.map (fun a : Nat => (a : Int))) = .ok o'.bl := by
  obtain ⟨hs', hlen', _⟩ := conj_shapes hs h
  rcases (conj_inv h).2 with ⟨hnil, rfl⟩ | ⟨newPol, new, hnp, hne, hnew, huvw, hdata, ha1, ha2, hbl, hpols, hnants, _⟩
  · exact hn
  have hN : o.nants ≤ 2147483648 := by
    unfold antnumsToBaseline at hn
    split at hn
    · simp at hn
    · rename_i h0; simpa using h0
  obtain ⟨⟨v1, v2, v3⟩, _⟩ := encode_ok hn
  have hne0 : o.ant1 ≠ [] := by simpa using v1
  have hb : ∀ a ∈ o.ant1 ++ o.ant2, a < 2147483648 := by
    intro a ha
    have := (v3 (a : Int) (by rw [← List.map_append]; exact List.mem_map.2 ⟨a, ha, rfl⟩)).2
    omega
  obtain ⟨s1, s2, s3, s4, s5⟩ := hs
  rw [encode_fixed _ _ _ hN hne0 s1.symm hb hc] at hn
  simp only [Except.ok.injEq] at hn
  have hsub : ∀ a ∈ o'.ant1 ++ o'.ant2, a ∈ o.ant1 ++ o.ant2 := by
    intro a ha
    rcases List.mem_append.1 ha with ha | ha
    · obtain ⟨i, hi⟩ := List.mem_iff_getElem?.1 ha
      rw [ha1, updAt_get] at hi
      split at hi
      · rename_i hidx
        simp only [indexArray, List.mem_filter, List.mem_range] at hidx
        have h1 := hidx.1
        have h2 : i < o.ant2.length := by omega
        rw [List.getElem?_eq_getElem h1, List.getElem?_eq_getElem h2] at hi
        simp only [Option.map_some, Option.getD_some, Option.some.injEq] at hi
        subst hi; simp
      · exact List.mem_append_left _ (List.mem_of_getElem? hi)
    · obtain ⟨i, hi⟩ := List.mem_iff_getElem?.1 ha
      rw [ha2, updAt_get] at hi
      split at hi
      · rename_i hidx
        simp only [indexArray, List.mem_filter, List.mem_range] at hidx
        have h1 := hidx.1
        have h2 : i < o.ant2.length := by omega
        rw [List.getElem?_eq_getElem h1, List.getElem?_eq_getElem h2] at hi
        simp only [Option.map_some, Option.getD_some, Option.some.injEq] at hi
        subst hi; simp
      · exact List.mem_append_right _ (List.mem_of_getElem? hi)
  have hne1 : o'.ant1 ≠ [] := by
    intro h0; apply hne0; apply List.length_eq_zero_iff.1; rw [← hlen', h0]; rfl
  rw [hnants, encode_fixed _ _ _ hN hne1 hs'.1.symm (fun a ha => hb a (hsub a ha))
    (hc.imp id (fun h a ha => h a (hsub a ha)))]
  congr 1
  -- the subset that was renumbered
  have hidxlt : ∀ i ∈ indexArray o c ue tol, i < o'.ant1.length ∧ i < o'.ant2.length := by
    intro i hi
    simp only [indexArray, List.mem_filter, List.mem_range] at hi
    have := hs'.1
    omega
  have hmm : ∀ xs : List Nat, (indexArray o c ue tol).map (fun i => ((xs[i]?.getD 0 : Nat) : Int)) =
      ((indexArray o c ue tol).map (fun i => xs[i]?.getD 0)).map (fun a : Nat => (a : Int)) := by
    intro xs; rw [List.map_map]; rfl
  have hsub2 : ∀ a ∈ (indexArray o c ue tol).map (fun i => o'.ant1[i]?.getD 0) ++
      (indexArray o c ue tol).map (fun i => o'.ant2[i]?.getD 0), a ∈ o.ant1 ++ o.ant2 := by
    intro a ha
    apply hsub
    rcases List.mem_append.1 ha with ha | ha
    · obtain ⟨i, hi, rfl⟩ := List.mem_map.1 ha
      rw [List.getElem?_eq_getElem (hidxlt i hi).1]
      simp
    · obtain ⟨i, hi, rfl⟩ := List.mem_map.1 ha
      rw [List.getElem?_eq_getElem (hidxlt i hi).2]
      simp
  rw [hmm, hmm, encode_fixed _ _ _ hN (by simpa using hne) (by simp) (fun a ha => hb a (hsub2 a ha))
    (hc.imp id (fun h a ha => h a (hsub2 a ha)))] at hnew
  simp only [Except.ok.injEq] at hnew
  apply List.ext_getElem?
  intro i
  rw [hbl, updAt_get]
  by_cases hi : i ∈ indexArray o c ue tol
  · rw [if_pos hi]
    obtain ⟨l1, l2⟩ := hidxlt i hi
    have hib : i < o.bl.length := by have := hs'.1; omega
    rw [List.getElem?_zipWith_eq_some.2 ⟨o'.ant1[i], o'.ant2[i], List.getElem?_eq_getElem l1,
      List.getElem?_eq_getElem l2, rfl⟩]
    rw [List.getElem?_eq_getElem hib]
    simp only [Option.map_some, Option.some.injEq]
    subst hnew
    generalize hE : encOne (if 2048 < o.nants then Conv.large else Conv.c2048) = E
    have : ∀ l : List Nat, i ∈ l → (l.zip (List.zipWith E (l.map (fun i => o'.ant1[i]?.getD 0))
        (l.map (fun i => o'.ant2[i]?.getD 0)))).find? (fun p => p.1 == i) = some (i, E o'.ant1[i] o'.ant2[i]) := by
      intro l hl
      induction l with
      | nil => simp at hl
      | cons j l ih =>
        simp only [List.map_cons, List.zipWith_cons_cons, List.zip_cons_cons, List.find?_cons]
        by_cases hj : j = i
        · subst hj
          simp [List.getElem?_eq_getElem l1, List.getElem?_eq_getElem l2]
        · have : (j == i) = false := by simpa using hj
          simp only [this]
          exact ih ((List.mem_cons.1 hl).resolve_left (fun h => hj h.symm))
    rw [this _ hi]; rfl
  · rw [if_neg hi, ← hn, List.getElem?_zipWith, List.getElem?_zipWith, ha1, ha2, updAt_get, updAt_get, if_neg hi,
      if_neg hi]

/-- C13: an index array that is empty or out of range, and a polarization axis that lacks a conjugate, are
refused. -/
theorem conjugate_refuses (cj : C → C) (o : Obj R C) (ue : Bool) (tol : R) :
    (∀ l : List Nat, (∃ i ∈ l, o.ant1.length ≤ i) → conjugateBls cj o (.index l) ue tol = .error .badIndex) ∧
    (∀ c i, (∀ l, c = .index l → l ≠ [] ∧ ∀ i ∈ l, i < o.ant1.length) → i < o.ant1.length →
      Violates o ue tol i c → (∃ p ∈ o.pols, ∀ q ∈ o.pols, conjNum p ≠ some q) →
      conjugateBls cj o c ue tol = .error .pols) := by
  constructor
  · rintro l ⟨i, hi, hle⟩
    unfold conjugateBls
    rw [if_pos]
    simp only [badIndex, Bool.or_eq_true, List.any_eq_true, decide_eq_true_eq]
    exact Or.inr ⟨i, hi, hle⟩
  · rintro c i hc hi hv ⟨p, hp, hq⟩
    unfold conjugateBls
    have hb : badIndex o.ant1.length c = false := by
      cases c <;> simp only [badIndex]
      rename_i l
      obtain ⟨h1, h2⟩ := hc l rfl
      simp only [Bool.or_eq_false_iff, List.isEmpty_eq_false_iff, List.any_eq_false, decide_eq_true_eq]
      exact ⟨h1, fun x hx => by have := h2 x hx; omega⟩
    have hne : (indexArray o c ue tol).isEmpty = false := by
      rw [List.isEmpty_eq_false_iff]
      apply List.ne_nil_of_mem (a := i)
      simp only [indexArray, List.mem_filter, List.mem_range]
      exact ⟨hi, (selected_iff _ _ _ _ _).2 hv⟩
    have hnone : reorderConjPols o.pols = none := by
      cases hr : reorderConjPols o.pols with
      | none => rfl
      | some r =>
        obtain ⟨q, hq1, hq2⟩ := (Verif.Pol.reorder_conj_succeeds_iff o.pols).1 (by rw [hr]; rfl) p hp
        exact absurd hq2 (hq q hq1)
    simp only [hb, hne, hnone, Bool.false_eq_true, if_false]

/-! ### Concrete cases -/

/-- Two rows, (3, 1) and (0, 2); polarizations xx, xy, yx, yy. -/
def demo : Obj Int Int :=
  { ant1 := [3, 0], ant2 := [1, 2], bl := [71681, 65538], uvw := [(5, -1, 2), (-4, 0, 0)], pols := [-5, -7, -8, -6],
    data := some [[[10, 20, 30, 40]], [[1, 2, 3, 4]]], flags := none, nsamples := none, nbls := 2, nants := 4,
    enu := fun a => ((a : Int), 0, 0) }

theorem demo_shaped : Shaped demo := by
  refine ⟨rfl, rfl, rfl, by decide, ?_⟩
  intro d hd
  simp only [demo, Option.some.injEq] at hd
  subst hd
  decide

example : Shaped demo ∧ Violates demo false 0 0 .ant1LtAnt2 ∧ ¬ Violates demo false 0 1 .ant1LtAnt2 ∧
    (∀ l, Convention.ant1LtAnt2 ≠ .index l) ∧
    ∃ o', conjugateBls (fun x => -x) demo .ant1LtAnt2 false 0 = .ok o' ∧ o'.ant1 = [1, 0] ∧
      o'.data = some [[[-10, -30, -20, -40]], [[1, 2, 3, 4]]] ∧ o'.bl = [67587, 65538] :=
  ⟨demo_shaped, by simp [Violates, demo], by simp [Violates, demo], by simp, _, rfl, by decide +kernel, by decide +kernel,
    by decide +kernel⟩

example : ∃ o' o'', conjugateBls (fun x => -x) demo (.index [1]) false 0 = .ok o' ∧
    conjugateBls (fun x => -x) o' (.index [1]) false 0 = .ok o'' := ⟨_, _, rfl, rfl⟩

example : antnumsToBaseline (some demo.nants) false false (demo.ant1.map (fun a : Nat => (a : Int)))
      (demo.ant2.map (fun a : Nat => (a : Int))) = .ok demo.bl ∧ ∀ a ∈ demo.ant1 ++ demo.ant2, a < 2048 := by
  decide +kernel

example : (∃ i ∈ [0, 2], demo.ant1.length ≤ i) ∧
    ∃ p ∈ ({ demo with pols := [-5, -7] } : Obj Int Int).pols, ∀ q ∈ ({ demo with pols := [-5, -7] } : Obj Int Int).pols,
      conjNum p ≠ some q := by decide +kernel

/-- Two rows, (0, 1) and (5000, 1), three antennas: both baselines use the large formula. -/
def bigNumber : Obj Int Int :=
  { ant1 := [0, 5000], ant2 := [1, 1], bl := [4259841, 10737422499841], uvw := [(1, 0, 0), (2, 0, 0)], pols := [-5],
    data := none, flags := none, nsamples := none, nbls := 2, nants := 3, enu := fun _ => (0, 0, 0) }

/-- C13, the fault in numbering: the renumbered row gets a number from a different formula, so that the
numbers of the object no longer decode to its antennas (row 1 becomes antennas (5242882048, 1)). -/
theorem conjugate_numbering_counterexample :
    antnumsToBaseline (some bigNumber.nants) false false (bigNumber.ant1.map (fun a : Nat => (a : Int)))
      (bigNumber.ant2.map (fun a : Nat => (a : Int))) = .ok bigNumber.bl ∧
    ∃ o', conjugateBls (fun x => -x) bigNumber (.index [0]) false 0 = .ok o' ∧ o'.ant1 = [1, 5000] ∧ o'.ant2 = [0, 1] ∧
      baselineToAntnums 3 (o'.bl.map (fun b : Nat => (b : Int))) ≠ .ok ([1, 5000], [0, 1]) :=
  ⟨by decide +kernel, _, rfl, by decide +kernel, by decide +kernel, by decide +kernel⟩

/-- One row with polarizations xy, yx, the xy sample flagged. -/
def flagged : Obj Int Int :=
  { ant1 := [1], ant2 := [0], bl := [67584], uvw := [(1, 0, 0)], pols := [-7, -8], data := some [[[10, 20]]],
    flags := some [[[true, false]]], nsamples := some [[[0, 1]]], nbls := 1, nants := 2, enu := fun _ => (0, 0, 0) }

/-- C13, the fault in flags: the visibility moves to the conjugate polarization but its flag and sample count
stay behind: the flagged value 10 is now unflagged under yx, the good value 20 is flagged under xy. -/
theorem conjugate_flags_counterexample :
    ∃ o', conjugateBls (fun x => -x) flagged .ant1LtAnt2 false 0 = .ok o' ∧ o'.pols = [-7, -8] ∧
      o'.data = some [[[-20, -10]]] ∧ o'.flags = some [[[true, false]]] ∧ o'.nsamples = some [[[0, 1]]] :=
  ⟨_, rfl, by decide +kernel, by decide +kernel, by decide +kernel, by decide +kernel⟩

/-- Baselines (0,1), (2,0), (0,2) at two times, time-major. -/
def rectRows : Obj Int Int :=
  { ant1 := [0, 2, 0, 0, 2, 0], ant2 := [1, 0, 2, 1, 0, 2], bl := [65537, 69632, 65538, 65537, 69632, 65538],
    uvw := List.replicate 6 (0, 0, 0), pols := [-5], data := none, flags := none, nsamples := none, nbls := 3, nants := 3,
    enu := fun _ => (0, 0, 0) }

/-- The same attributes as seen by `antpair2ind`, with the rectangularity attributes determined before. -/
def asPairs (o : Obj Int Int) : AntPair.Obj :=
  { ant1 := o.ant1, ant2 := o.ant2, bl := o.bl, nbls := o.nbls, ntimes := 2, nants := o.nants, rect := true,
    timeFaster := false }

/-- C13/C14, the fault in layout: `conjugate_bls` makes two of three baselines equal but leaves the
rectangularity attributes, so `antpair2ind(0, 2)` afterwards selects rows 1, 3, 5 although row 3 is (0, 1) and
rows 2 and 4 are missed. -/
theorem conjugate_layout_counterexample :
    AntPair.Numbered (asPairs rectRows) ∧ AntPair.LaidOut (asPairs rectRows) ∧
    ∃ o', conjugateBls (fun x => -x) rectRows .ant1LtAnt2 false 0 = .ok o' ∧ o'.ant1 = [0, 0, 0, 0, 0, 0] ∧
      o'.ant2 = [1, 2, 2, 1, 2, 2] ∧
      ∃ r, AntPair.antpair2ind (asPairs o') 0 2 true = .ok r ∧ r.picks 6 = some [1, 3, 5] := by
  refine ⟨⟨false, by decide +kernel⟩,
    fun _ => ⟨by decide, by decide, [65537, 69632, 65538], by decide, by decide, by decide⟩, _, rfl, by decide +kernel,
    by decide +kernel, _, rfl, by decide +kernel⟩

end Verif.Conj
