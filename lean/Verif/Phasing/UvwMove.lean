import Verif.Phasing.UvwAnts

/-!
# Baseline coordinates from old ones
-/

namespace Verif.Phasing

open Verif.Coord (V3)

/-- Entry `i` of an optional row array. -/
def Entry (o : Option (List ℝ)) (i : Nat) (x : ℝ) : Prop := ∃ l, o = some l ∧ l[i]? = some x

/-- The source position and position angle of row `i` before the call: local coordinates are those
of a source overhead. -/
def Was (a : Args) (i : Nat) (ra dec pa : ℝ) : Prop :=
  if a.fromEnu then Entry a.lst i ra ∧ a.lat = some dec ∧ pa = 0
  else Entry a.oldRa i ra ∧ Entry a.oldDec i dec ∧ paAt a.oldPa i = some pa

/-- The source position and position angle of row `i` after the call. -/
def Becomes (a : Args) (i : Nat) (ra dec pa : ℝ) : Prop :=
  if a.toEnu then Entry a.lst i ra ∧ a.lat = some dec ∧ pa = 0
  else Entry a.appRa i ra ∧ Entry a.appDec i dec ∧ paAt a.framePa i = some pa

/-- Where local coordinates are named and a source position is given all the same, it is overhead
with position angle zero. -/
structure Coherent (a : Args) : Prop where
  oldDec : a.fromEnu = true → ∀ l, a.oldDec = some l → ∀ d ∈ l, a.lat = some d
  oldPa : a.fromEnu = true → ∀ l, a.oldPa = some l → ∀ p ∈ l, p = 0
  newDec : a.toEnu = true → ∀ l, a.appDec = some l → ∀ d ∈ l, a.lat = some d
  newPa : a.toEnu = true → ∀ l, a.framePa = some l → ∀ p ∈ l, p = 0

theorem entry_unique {o : Option (List ℝ)} {i : Nat} {x y : ℝ} (h1 : Entry o i x)
    (h2 : Entry o i y) : x = y := by
  obtain ⟨l, rfl, h⟩ := h1
  obtain ⟨l', e, h'⟩ := h2
  obtain rfl := Option.some.inj e
  rw [h] at h'
  exact Option.some.inj h'

theorem was_unique {a : Args} {i : Nat} {r d p r' d' p' : ℝ} (h1 : Was a i r d p)
    (h2 : Was a i r' d' p') : r = r' ∧ d = d' ∧ p = p' := by
  unfold Was at *
  split_ifs at h1 h2
  · refine ⟨entry_unique h1.1 h2.1, ?_, by rw [h1.2.2, h2.2.2]⟩
    have := h1.2.1
    rw [h2.2.1] at this
    exact (Option.some.inj this).symm
  · refine ⟨entry_unique h1.1 h2.1, entry_unique h1.2.1 h2.2.1, ?_⟩
    have := h1.2.2
    rw [h2.2.2] at this
    exact (Option.some.inj this).symm

/-- What a successful call without antenna positions did. -/
theorem move_cases {junk : M3} {a : Args} {uvw out : List V3} (hu : a.useAntPos = false)
    (hv : a.uvw = some uvw) (h : calcUvw junk a = .ok out) :
    (a.fromEnu = true ∧ a.toEnu = true ∧ out = uvw) ∨
    (¬ (a.fromEnu = true ∧ a.toEnu = true) ∧ Lengths a uvw.length ∧ ∃ g, ghaDelta a = .ok g ∧
      (g.NoRot ∧ AllEq a.oldDec a.appDec → onlyPa uvw a.framePa a.oldPa = .ok out) ∧
      (¬ (g.NoRot ∧ AllEq a.oldDec a.appDec) → rotateAll junk a uvw g = .ok out)) := by
  unfold calcUvw at h
  split_ifs at h with h1 h2 h3
  · rw [hu] at h3; simp at h3
  · unfold calcFromUvw at h
    rw [hv] at h
    simp only at h
    split_ifs at h with h4 h5 h6 h7 h8
    · simp only [Except.ok.injEq] at h
      exact .inl ⟨h4.1, h4.2, h.symm⟩
    · refine .inr ⟨h4, h8, ?_⟩
      cases hg : ghaDelta a with
      | error e => rw [hg] at h; simp at h
      | ok g =>
        rw [hg] at h
        simp only at h
        refine ⟨g, rfl, ?_, ?_⟩
        · intro hc; rwa [if_pos hc] at h
        · intro hc; rwa [if_neg hc] at h

theorem Lengths.get {a : Args} {n : Nat} (h : Lengths a n) :
    (∀ l, a.appRa = some l → l.length = n) ∧ (∀ l, a.appDec = some l → l.length = n) ∧
    (∀ l, a.framePa = some l → l.length = n) ∧ (∀ l, a.lst = some l → l.length = n) ∧
    (∀ l, a.oldRa = some l → l.length = n) ∧ (∀ l, a.oldDec = some l → l.length = n) ∧
    (∀ l, a.oldPa = some l → l.length = n) := by
  unfold Lengths at h
  refine ⟨?_, ?_, ?_, ?_, ?_, ?_, ?_⟩ <;> exact h _ (by simp)

/-- The vectors as an array with one vector per row. -/
theorem arr_ok (uvw : List V3) : (⟨1, uvw.map fun v => [ofUvw v]⟩ : Arr).Ok uvw.length :=
  ⟨.inr (by simp), by simp⟩

theorem arr_get {uvw : List V3} {i : Nat} {v : V3} (h : uvw[i]? = some v) :
    bget (uvw.map fun v => [ofUvw v]) i = some [ofUvw v] := by
  have hi := (List.getElem?_eq_some_iff.1 h).1
  rw [bget_full (n := uvw.length) (by simp) hi, List.getElem?_map, h]; rfl

theorem dropAxis_get : ∀ {rows : List (List V3)} {i : Nat} {v : V3}, (∀ r ∈ rows, r.length = 1) →
    rows[i]? = some [v] → (rows.flatten.map toUvw)[i]? = some (toUvw v) := by
  intro rows i v h hi
  have := flatten_get rows h i 0 [v] hi (by omega)
  simp only [mul_one, add_zero, List.getElem?_cons_zero] at this
  rw [List.getElem?_map, this]; rfl

theorem dropAxis_length {rows : List (List V3)} (h : ∀ r ∈ rows, r.length = 1) :
    (rows.flatten.map toUvw).length = rows.length := by
  rw [List.length_map]
  induction rows with
  | nil => rfl
  | cons r rows ih =>
    rw [List.flatten_cons, List.length_append, h r (by simp), ih (fun r hr => h r (by simp [hr])),
      List.length_cons]
    omega

/-- Turning by the difference of two position angles. -/
theorem proj_turn (lam dec pa pa' : ℝ) (b : V3) :
    toUvw (rotAbout 0 (pa' - pa) (ofUvw (proj lam dec pa b))) = proj lam dec pa' b := by
  have h1 := proj_rot (-lam) dec pa b
  have h2 := proj_rot (-lam) dec pa' b
  rw [neg_neg] at h1 h2
  rw [← h1, ← h2]
  have : ∀ v : V3, ofUvw (toUvw v) = v := fun v => rfl
  rw [this, rotAbout_add]
  congr 2; ring

/-- The five rotations of a move. -/
theorem proj_move (L ra dec pa ra' dec' pa' : ℝ) (b : V3) :
    toUvw (rotAbout 0 pa' (rotAbout 1 dec' (rotAbout 2 (ra - ra')
      (rotAbout 1 (-dec) (rotAbout 0 (-pa) (ofUvw (proj (ra - L) dec pa b)))))))
      = proj (ra' - L) dec' pa' b := by
  have h1 := proj_rot (-(ra - L)) dec pa b
  have h2 := proj_rot (-(ra' - L)) dec' pa' b
  rw [neg_neg] at h1 h2
  rw [← h1, ← h2]
  have : ∀ v : V3, ofUvw (toUvw v) = v := fun v => rfl
  rw [this, rotAbout_neg, rotAbout_neg, rotAbout_add]
  congr 4; ring

theorem onlyPa_spec {uvw : List V3} {pa : List ℝ} {oldPa : Option (List ℝ)}
    (hp : pa.length = uvw.length) (ho : ∀ l, oldPa = some l → l.length = uvw.length) :
    ∃ out, onlyPa uvw (some pa) oldPa = .ok out ∧ out.length = uvw.length ∧
      ∀ (i : Nat) (v : V3) (p q : ℝ), uvw[i]? = some v → pa[i]? = some p →
        paAt oldPa i = some q → out[i]? = some (toUvw (rotAbout 0 (p - q) (ofUvw v))) := by
  set as := paDiff pa oldPa with has
  have hlen : as.length = uvw.length := by
    rw [has]
    cases oldPa with
    | none => simp [paDiff, hp]
    | some l => simp [paDiff, hp, ho l rfl]
  obtain ⟨y, y1, y2, y3, y4, y5, y6⟩ := rotateOne_spec (a := .array as) 0 (arr_ok uvw)
    (.inr hlen) (.inr (.inl rfl))
  have hyl : y.rows.length = uvw.length := y4 (.inr (by simp))
  have hy1 : ∀ r ∈ y.rows, r.length = 1 := fun r hr => (y2.vecs r hr).trans y3
  refine ⟨dropAxis y, ?_, ?_, ?_⟩
  · unfold onlyPa
    simp only
    rw [← has, y1]; rfl
  · rw [dropAxis, dropAxis_length hy1, hyl]
  · intro i v p q hv hpi hq
    have hi := (List.getElem?_eq_some_iff.1 hv).1
    have hat : (Amount.array as).at i = some (p - q) := by
      rw [Amount.at, bget_full hlen hi, has]
      cases oldPa with
      | none =>
        simp only [paAt, Option.some.injEq] at hq
        subst hq
        rw [paDiff, List.getElem?_map, hpi]; rfl
      | some l =>
        simp only [paAt] at hq
        rw [paDiff, List.getElem?_zipWith, hpi, hq]
    have := y6 i hi _ _ (arr_get hv) hat
    rw [bget_full hyl hi] at this
    exact dropAxis_get hy1 this

theorem rotateAll_spec (junk : M3) {a : Args} {uvw : List V3} {g tilt : Amount}
    (hL : Lengths a uvw.length) (hg : g.Fits uvw.length) (ht : oldTilt a = .ok tilt) :
    ∃ out, rotateAll junk a uvw g = .ok out ∧ out.length = uvw.length ∧
      ∀ (i : Nat) (v : V3) (s t γ d p : ℝ), uvw[i]? = some v → (oldSpin a).at i = some s →
        tilt.at i = some t → g.at i = some γ → (newTilt a).at i = some d →
        (if a.toEnu then p = 0 else paAt a.framePa i = some p) →
        out[i]? = some (toUvw (rotAbout 0 p (rotAbout 1 d (rotAbout 2 γ
          (rotAbout 1 t (rotAbout 0 s (ofUvw v))))))) := by
  obtain ⟨l1, l2, l3, l4, l5, l6, l7⟩ := hL.get
  have f1 : (oldSpin a).Fits uvw.length := by
    unfold oldSpin
    split_ifs
    · trivial
    · cases ho : a.oldPa with
      | none => trivial
      | some l => exact .inr (by simpa using l7 l ho)
  have f2 : tilt.Fits uvw.length := by
    unfold oldTilt at ht
    split_ifs at ht
    · cases ho : a.lat with
      | none => rw [ho] at ht; simp at ht
      | some l => rw [ho] at ht; simp only [Except.ok.injEq] at ht; rw [← ht]; trivial
    · cases ho : a.oldDec with
      | none => rw [ho] at ht; simp at ht
      | some l =>
        rw [ho] at ht; simp only [Except.ok.injEq] at ht; rw [← ht]
        exact .inr (by simpa using l6 l ho)
  have f3 : (newTilt a).Fits uvw.length := by
    unfold newTilt
    split_ifs
    · cases ho : a.lat <;> trivial
    · cases ho : a.appDec with
      | none => trivial
      | some l => exact .inr (l2 l ho)
  have f4 : (rowAmount a.framePa).Fits uvw.length := by
    cases ho : a.framePa with
    | none => trivial
    | some l => exact .inr (l3 l ho)
  obtain ⟨x, x1, x2, x3, -, x4, -, x6⟩ := rotateTwo_spec junk 0 1 (arr_ok uvw) f1 f2 (.inl rfl)
  obtain ⟨y, y1, y2, y3, -, y4, -, y6⟩ := rotateTwo_spec junk 2 1 x2 hg f3 (.inl x3)
  have hyl : y.rows.length = uvw.length := y4 (x4 (by simp))
  have hy1 : ∀ r ∈ y.rows, r.length = 1 := fun r hr => (y2.vecs r hr).trans (y3.trans x3)
  unfold rotateAll
  rw [ht]
  simp only
  rw [x1]
  simp only
  rw [y1]
  simp only
  by_cases hto : a.toEnu = true
  · rw [if_pos hto]
    refine ⟨_, rfl, by rw [dropAxis, dropAxis_length hy1, hyl], ?_⟩
    intro i v s t γ d p hv hs htt hγ hd hp
    rw [if_pos hto] at hp
    subst hp
    have hi := (List.getElem?_eq_some_iff.1 hv).1
    have := y6 i hi _ _ _ (x6 i hi _ _ _ (arr_get hv) hs htt) hγ hd
    rw [bget_full hyl hi] at this
    rw [rotAbout_zero]
    exact dropAxis_get hy1 this
  · rw [if_neg hto]
    obtain ⟨z, z1, z2, z3, z4, -, z6⟩ := rotateOne_spec 0 y2 f4 (.inr (.inl (y3.trans x3)))
    have hzl : z.rows.length = uvw.length := z4 (.inr hyl)
    have hz1 : ∀ r ∈ z.rows, r.length = 1 := fun r hr => (z2.vecs r hr).trans (z3.trans (y3.trans x3))
    rw [z1]
    refine ⟨dropAxis z, rfl, by rw [dropAxis, dropAxis_length hz1, hzl], ?_⟩
    intro i v s t γ d p hv hs htt hγ hd hp
    rw [if_neg hto] at hp
    have hi := (List.getElem?_eq_some_iff.1 hv).1
    have hpi : (rowAmount a.framePa).at i = some p := by
      cases ho : a.framePa with
      | none => rw [ho] at hp; exact hp
      | some l =>
        rw [ho] at hp
        rw [rowAmount, Amount.at, bget_full (l3 l ho) hi]; exact hp
    have := z6 i hi _ _ (y6 i hi _ _ _ (x6 i hi _ _ _ (arr_get hv) hs htt) hγ hd) hpi
    rw [bget_full hzl hi] at this
    exact dropAxis_get hz1 this

/-- **C70.** Without antenna positions: a row that holds a baseline projected for its old source
position and position angle gets the same baseline projected for the new ones, whatever the
baseline is and whichever way the code takes. -/
theorem uvw_moved_partial {junk : M3} {a : Args} {uvw out : List V3} (hu : a.useAntPos = false)
    (hv : a.uvw = some uvw) (hc : Coherent a) (h : calcUvw junk a = .ok out)
    (i : Nat) (ra dec pa ra' dec' pa' L : ℝ) (b : V3) (h1 : Was a i ra dec pa)
    (h2 : Becomes a i ra' dec' pa') (h3 : uvw[i]? = some (proj (ra - L) dec pa b)) :
    out[i]? = some (proj (ra' - L) dec' pa' b) := by
  have hi := (List.getElem?_eq_some_iff.1 h3).1
  rcases move_cases hu hv h with ⟨hf, ht, rfl⟩ | ⟨hft, hL, g, hg, hA, hB⟩
  · unfold Was at h1
    unfold Becomes at h2
    rw [if_pos hf] at h1
    rw [if_pos ht] at h2
    rw [h3, entry_unique h1.1 h2.1, h1.2.2, h2.2.2]
    have := h1.2.1
    rw [h2.2.1] at this
    rw [Option.some.inj this]
  · obtain ⟨l1, l2, l3, l4, l5, l6, l7⟩ := hL.get
    -- the change of hour angle
    have hgi : g.Fits uvw.length ∧ g.at i = some (ra - ra') := by
      unfold ghaDelta at hg
      by_cases hn : a.appRa.isNone ∧ a.oldRa.isNone
      · exfalso
        obtain ⟨hn1, hn2⟩ := hn
        rw [Option.isNone_iff_eq_none] at hn1 hn2
        unfold Was at h1
        unfold Becomes at h2
        by_cases hf : a.fromEnu = true
        · by_cases ht : a.toEnu = true
          · exact hft ⟨hf, ht⟩
          · rw [if_neg ht] at h2
            obtain ⟨l, hl, -⟩ := h2.1
            rw [hn1] at hl; simp at hl
        · rw [if_neg hf] at h1
          obtain ⟨l, hl, -⟩ := h1.1
          rw [hn2] at hl; simp at hl
      · rw [if_neg hn] at hg
        have e1 : ∃ l, (if a.fromEnu then a.lst else a.oldRa) = some l ∧ l[i]? = some ra ∧
            l.length = uvw.length := by
          unfold Was at h1
          split_ifs at h1 ⊢
          · obtain ⟨l, hl, hl'⟩ := h1.1
            exact ⟨l, hl, hl', l4 l hl⟩
          · obtain ⟨l, hl, hl'⟩ := h1.1
            exact ⟨l, hl, hl', l5 l hl⟩
        have e2 : ∃ l, (if a.toEnu then a.lst else a.appRa) = some l ∧ l[i]? = some ra' ∧
            l.length = uvw.length := by
          unfold Becomes at h2
          split_ifs at h2 ⊢
          · obtain ⟨l, hl, hl'⟩ := h2.1
            exact ⟨l, hl, hl', l4 l hl⟩
          · obtain ⟨l, hl, hl'⟩ := h2.1
            exact ⟨l, hl, hl', l1 l hl⟩
        obtain ⟨m1, m2, m3, m4⟩ := e1
        obtain ⟨k1, k2, k3, k4⟩ := e2
        rw [m2, k2] at hg
        simp only [Except.ok.injEq] at hg
        have hlen : (List.zipWith (· - ·) m1 k1).length = uvw.length := by
          rw [List.length_zipWith, m4, k4, min_self]
        rw [← hg]
        refine ⟨.inr hlen, ?_⟩
        rw [Amount.at, bget_full hlen hi, List.getElem?_zipWith, m3, k3]
    obtain ⟨hgf, hgi⟩ := hgi
    by_cases hcorner : g.NoRot ∧ AllEq a.oldDec a.appDec
    · -- only the position angle changes
      have hout := hA hcorner
      have hra : ra = ra' := by
        have := NoRot.at_zero hcorner.1 hgf hi
        rw [hgi] at this
        have := Option.some.inj this
        linarith
      cases hfp : a.framePa with
      | none => rw [hfp] at hout; simp [onlyPa] at hout
      | some fp =>
        rw [hfp] at hout
        obtain ⟨out', o1, o2, o3⟩ := onlyPa_spec (l3 fp hfp) l7
        rw [hout] at o1
        obtain rfl := Except.ok.inj o1
        -- old and new declinations and position angles
        have key : dec = dec' ∧ fp[i]? = some pa' ∧ paAt a.oldPa i = some pa := by
          have hzero : ∀ (l : List ℝ), l.length = uvw.length → (∀ p ∈ l, p = 0) → l[i]? = some 0 := by
            intro l hl hp
            have : l[i]? = some (l[i]'(by omega)) := List.getElem?_eq_getElem (by omega)
            rw [this, hp _ (List.mem_of_getElem? this)]
          have hlat : ∀ (l : List ℝ), l.length = uvw.length → (∀ p ∈ l, a.lat = some p) →
              ∃ d, l[i]? = some d ∧ a.lat = some d := by
            intro l hl hp
            have : l[i]? = some (l[i]'(by omega)) := List.getElem?_eq_getElem (by omega)
            exact ⟨_, this, hp _ (List.mem_of_getElem? this)⟩
          unfold Was at h1
          unfold Becomes at h2
          by_cases hf : a.fromEnu = true
          · rw [if_pos hf] at h1
            by_cases ht : a.toEnu = true
            · exact absurd ⟨hf, ht⟩ hft
            rw [if_neg ht] at h2
            obtain ⟨ld, hld, hld'⟩ := h2.2.1
            have hold : a.oldDec = some ld := by
              have := hcorner.2
              rw [hld] at this
              cases ho : a.oldDec with
              | none =>
                rw [ho] at this
                simp only [AllEq] at this
                rw [this] at hld'
                simp at hld'
              | some l =>
                rw [ho] at this
                simp only [AllEq] at this
                rw [this]
            obtain ⟨d, hd1, hd2⟩ := hlat ld (l2 ld hld) (hc.oldDec hf ld hold)
            refine ⟨?_, ?_, ?_⟩
            · rw [hld'] at hd1
              rw [h1.2.1] at hd2
              rw [Option.some.inj hd1, Option.some.inj hd2]
            · have := h2.2.2
              rw [hfp] at this
              exact this
            · rw [h1.2.2]
              cases ho : a.oldPa with
              | none => rfl
              | some l => exact hzero l (l7 l ho) (hc.oldPa hf l ho)
          · rw [if_neg hf] at h1
            obtain ⟨lo, hlo, hlo'⟩ := h1.2.1
            have hnew : a.appDec = some lo := by
              have := hcorner.2
              rw [hlo] at this
              cases ho : a.appDec with
              | none =>
                rw [ho] at this
                simp only [AllEq] at this
                rw [this] at hlo'
                simp at hlo'
              | some l =>
                rw [ho] at this
                simp only [AllEq] at this
                rw [this]
            by_cases ht : a.toEnu = true
            · rw [if_pos ht] at h2
              obtain ⟨d, hd1, hd2⟩ := hlat lo (l6 lo hlo) (hc.newDec ht lo hnew)
              refine ⟨?_, ?_, h1.2.2⟩
              · rw [hlo'] at hd1
                rw [h2.2.1] at hd2
                rw [Option.some.inj hd1, Option.some.inj hd2]
              · rw [h2.2.2]
                exact hzero fp (l3 fp hfp) (hc.newPa ht fp hfp)
            · rw [if_neg ht] at h2
              refine ⟨?_, ?_, h1.2.2⟩
              · exact entry_unique ⟨lo, hnew, hlo'⟩ h2.2.1
              · have := h2.2.2
                rw [hfp] at this
                exact this
        obtain ⟨k1, k2, k3⟩ := key
        rw [o3 i _ _ _ h3 k2 k3, proj_turn, hra, k1]
    · have hout := hB hcorner
      have htilt : ∃ tilt, oldTilt a = .ok tilt ∧ tilt.at i = some (-dec) := by
        unfold oldTilt
        unfold Was at h1
        split_ifs at h1 ⊢
        · rw [h1.2.1]
          exact ⟨_, rfl, rfl⟩
        · obtain ⟨l, hl, hl'⟩ := h1.2.1
          rw [hl]
          refine ⟨_, rfl, ?_⟩
          rw [Amount.at, bget_full (by simpa using l6 l hl) hi, List.getElem?_map, hl']; rfl
      obtain ⟨tilt, t1, t2⟩ := htilt
      obtain ⟨out', o1, o2, o3⟩ := rotateAll_spec junk hL hgf t1
      rw [hout] at o1
      obtain rfl := Except.ok.inj o1
      have hspin : (oldSpin a).at i = some (-pa) := by
        unfold oldSpin
        unfold Was at h1
        split_ifs at h1 ⊢
        · rw [h1.2.2, Amount.at, neg_zero]
        · cases ho : a.oldPa with
          | none =>
            have := h1.2.2
            rw [ho] at this
            simp only [paAt, Option.some.injEq] at this
            rw [← this, Amount.at, neg_zero]
          | some l =>
            have := h1.2.2
            rw [ho] at this
            rw [Amount.at, bget_full (by simpa using l7 l ho) hi, List.getElem?_map]
            simp only [paAt] at this
            rw [this]; rfl
      have hnt : (newTilt a).at i = some dec' := by
        unfold newTilt
        unfold Becomes at h2
        split_ifs at h2 ⊢
        · rw [h2.2.1]; rfl
        · obtain ⟨l, hl, hl'⟩ := h2.2.1
          rw [hl, rowAmount, Amount.at, bget_full (l2 l hl) hi, hl']
      have hp : if a.toEnu then pa' = 0 else paAt a.framePa i = some pa' := by
        unfold Becomes at h2
        split_ifs at h2 ⊢
        · exact h2.2.2
        · exact h2.2.2
      rw [o3 i _ _ _ _ _ _ h3 hspin t2 hgi hnt hp, proj_move]

end Verif.Phasing
