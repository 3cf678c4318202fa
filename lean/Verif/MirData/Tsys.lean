import Verif.MirData.Rechunk

/-!
# System temperatures
-/

namespace Verif.MirData

variable {K : Type} [Field K] [LinearOrder K] [IsStrictOrderedRing K]

/-- Values are multiplied by `x`, weights by `y`; flags stay. -/
def scaled (x y : K) (v : List (Chan K)) : List (Chan K) := v.map fun c => ⟨c.re * x, c.im * x, c.flag, c.wt * y⟩

/-- All is flagged and otherwise the same. -/
def allFlagged (v : List (Chan K)) : List (Chan K) := v.map fun c => ⟨c.re, c.im, true, c.wt⟩

omit [LinearOrder K] [IsStrictOrderedRing K] in
theorem scaled_scaled (x y x' y' : K) (v : List (Chan K)) : scaled x' y' (scaled x y v) = scaled (x * x') (y * y') v := by
  unfold scaled
  rw [List.map_map]
  refine List.map_congr_left (fun c _ => ?_)
  simp [mul_assoc]

omit [LinearOrder K] [IsStrictOrderedRing K] in
theorem scaled_one (v : List (Chan K)) : scaled 1 1 v = v := by
  unfold scaled
  simp

omit [IsStrictOrderedRing K] in
theorem scaleRec_ne (x y : K) (hx : x ≠ 0) (v : List (Chan K)) : scaleRec x y v = scaled x y v := by
  unfold scaleRec scaled
  rw [if_neg hx]

omit [IsStrictOrderedRing K] in
theorem scaleRec_zero (y : K) (v : List (Chan K)) : scaleRec 0 y v = allFlagged v := by
  unfold scaleRec allFlagged
  rw [if_pos rfl]

/-- When the weight of the record is `rinteg / T ** 2`, values are multiplied by `2 * jypk * T`, and weights by the number of samples over
the square of that. -/
theorem tsysWt_meaning (sqrt : K → K) (hs : ∀ x, 0 < x → sqrt (x * x) = x) (jypk T fres rinteg : K) (hj : 0 < jypk) (hT : 0 < T) (hf : fres ≠ 0)
    (hr : 0 < rinteg) (v : List (Chan K)) :
    tsysWt sqrt jypk false (rinteg / T ^ 2) fres rinteg v =
      scaled (2 * jypk * T) (|fres| * 1000000 * rinteg / (2 * jypk * T) ^ 2) v := by
  have hf' : 0 < |fres| := abs_pos.mpr hf
  have hw : rinteg / T ^ 2 * |fres| * (1000000 * (1 / (jypk * 2) ^ 2)) ≠ 0 := by positivity
  have e : 1 / (rinteg / T ^ 2) * rinteg = T * T := by field_simp
  unfold tsysWt
  simp only [Bool.false_eq_true, if_false]
  rw [if_pos hw, e, hs T hT, scaleRec_ne _ _ (by positivity)]
  congr 1
  · ring
  · field_simp

omit [IsStrictOrderedRing K] in
theorem tsysDet_some (jypk t fres rinteg : K) (hn : 2 * jypk * t ≠ 0) (v : List (Chan K)) :
    tsysDet jypk false (some t) fres rinteg v = scaled (2 * jypk * t) (|fres * 1000000| * rinteg / (2 * jypk * t) ^ 2) v := by
  unfold tsysDet
  simp only [Bool.false_eq_true, if_false]
  rw [scaleRec_ne _ _ hn]

/-- Temperatures from the detectors give the same as the weights, if these belong to the same temperatures. -/
theorem tsys_agree (sqrt : K → K) (hs : ∀ x, 0 < x → sqrt (x * x) = x) (jypk t1 t2 fres rinteg : K) (hj : 0 < jypk) (hf : fres ≠ 0)
    (hr : 0 < rinteg) (h1 : 0 < t1 ∧ t1 < 100000) (h2 : 0 < t2 ∧ t2 < 100000) (hp : 0 < sqrt t1 ∧ 0 < sqrt t2) (v : List (Chan K)) :
    tsysDet jypk false (pairRoot sqrt (some t1) (some t2)) fres rinteg v =
      tsysWt sqrt jypk false (rinteg / (sqrt t1 * sqrt t2) ^ 2) fres rinteg v := by
  have ht : 0 < sqrt t1 * sqrt t2 := mul_pos hp.1 hp.2
  have e : pairRoot sqrt (some t1) (some t2) = some (sqrt t1 * sqrt t2) := by
    unfold pairRoot root
    dsimp only
    rw [if_pos h1, if_pos h2]
  rw [e, tsysDet_some _ _ _ _ (by positivity), tsysWt_meaning sqrt hs jypk _ fres rinteg hj ht hf hr]
  congr 1
  rw [abs_mul, abs_of_pos (show (0 : K) < 1000000 by norm_num)]

/-- Undoing gives the data, flags and weights back. -/
theorem tsysWt_undo (sqrt : K → K) (hs : ∀ x, 0 < x → sqrt x ≠ 0) (jypk wt fres rinteg : K) (hj : jypk ≠ 0) (hw : 0 < wt) (hf : fres ≠ 0)
    (hr : 0 < rinteg) (v : List (Chan K)) :
    tsysWt sqrt jypk true wt fres rinteg (tsysWt sqrt jypk false wt fres rinteg v) = v := by
  have hf' : 0 < |fres| := abs_pos.mpr hf
  have hq : (0 : K) < (jypk * 2) ^ 2 := by positivity
  have hwn : wt * |fres| * (1000000 * (1 / (jypk * 2) ^ 2)) ≠ 0 := by positivity
  have hn : jypk * 2 * sqrt (1 / wt * rinteg) ≠ 0 := mul_ne_zero (mul_ne_zero hj (by norm_num)) (hs _ (by positivity))
  unfold tsysWt
  simp only [Bool.false_eq_true, if_false, if_true]
  rw [if_pos hwn, scaleRec_ne _ _ hn]
  have h1 : recip (jypk * 2 * sqrt (1 / wt * rinteg)) = 1 / (jypk * 2 * sqrt (1 / wt * rinteg)) := by
    unfold recip
    rw [if_pos hn]
  have h2 : recip (wt * |fres| * (1000000 * (1 / (jypk * 2) ^ 2))) = 1 / (wt * |fres| * (1000000 * (1 / (jypk * 2) ^ 2))) := by
    unfold recip
    rw [if_pos hwn]
  rw [h1, h2, scaleRec_ne _ _ (one_div_ne_zero hn), scaled_scaled, mul_one_div_cancel hn, mul_one_div_cancel hwn, scaled_one]

/-- Records without weight, width or time are flagged, values and weights stay; undoing keeps the flags. -/
theorem tsysWt_flags (sqrt : K → K) (h0 : sqrt 0 = 0) (jypk wt fres rinteg : K) (h : wt = 0 ∨ fres = 0 ∨ rinteg = 0) (invert : Bool)
    (v : List (Chan K)) : tsysWt sqrt jypk invert wt fres rinteg v = allFlagged v := by
  have hn : jypk * 2 * sqrt ((if wt * |fres| * (1000000 * (1 / (jypk * 2) ^ 2)) ≠ 0 then 1 / wt else 0) * rinteg) = 0 := by
    rcases h with rfl | rfl | rfl
    · simp [h0]
    · simp [h0, abs_zero]
    · simp [h0]
  unfold tsysWt
  simp only [hn]
  have hr : recip (0 : K) = 0 := by simp [recip]
  cases invert
  · simp only [Bool.false_eq_true, if_false]
    exact scaleRec_zero _ v
  · simp only [if_true, hr]
    exact scaleRec_zero _ v

omit [IsStrictOrderedRing K] in
/-- With detectors, records are flagged whenever a temperature is missing, not positive or at least 100000. -/
theorem tsysDet_flags (sqrt : K → K) (jypk fres rinteg : K) (t1 t2 : Option K)
    (h : t1 = none ∨ t2 = none ∨ (∃ t, (t1 = some t ∨ t2 = some t) ∧ (t ≤ 0 ∨ 100000 ≤ t))) (invert : Bool) (v : List (Chan K)) :
    tsysDet jypk invert (pairRoot sqrt t1 t2) fres rinteg v = allFlagged v := by
  cases t1 with
  | none => rfl
  | some t1 =>
    cases t2 with
    | none => rfl
    | some t2 =>
      have hz : root sqrt t1 * root sqrt t2 = 0 := by
        rcases h with h | h | ⟨t, ht, hr⟩
        · cases h
        · cases h
        · have hr' : root sqrt t = 0 := by
            unfold root
            rw [if_neg]
            intro ⟨a, b⟩
            rcases hr with hr | hr
            · exact absurd a (not_lt.mpr hr)
            · exact absurd b (not_lt.mpr hr)
          rcases ht with ht | ht <;> cases ht <;> simp [hr']
      unfold pairRoot tsysDet
      simp only [hz, mul_zero]
      have hr : recip (0 : K) = 0 := by simp [recip]
      rw [hr, ite_self]
      exact scaleRec_zero _ v

/-- "Undoing gives the weights back" fails with detectors: data come back, but weights are divided by the fourth power of the factor. -/
theorem tsysDetUndo_counterexample (jypk t fres rinteg : K) (hj : 0 < jypk) (ht : 0 < t) (hf : fres ≠ 0) (hr : 0 < rinteg) (v : List (Chan K)) :
    tsysDet jypk true (some t) fres rinteg (tsysDet jypk false (some t) fres rinteg v) = scaled 1 (1 / (2 * jypk * t) ^ 4) v := by
  have hn : 2 * jypk * t ≠ 0 := by positivity
  have hf' : 0 < |fres * 1000000| := abs_pos.mpr (mul_ne_zero hf (by norm_num))
  rw [tsysDet_some _ _ _ _ hn]
  unfold tsysDet
  have h1 : recip (2 * jypk * t) = 1 / (2 * jypk * t) := by
    unfold recip
    rw [if_pos hn]
  simp only [if_true, h1]
  rw [scaleRec_ne _ _ (one_div_ne_zero hn), scaled_scaled, mul_one_div_cancel hn]
  congr 1
  field_simp

/-- Applying and undoing by turns: what is refused. -/
theorem tsysCmd_refused (applied invert : Bool) : tsysCmd applied invert false = none ↔ applied = !invert := by
  revert applied invert
  decide

theorem tsysCmd_state (applied invert force s : Bool) (h : tsysCmd applied invert force = some s) : s = !invert := by
  unfold tsysCmd at h
  split at h
  · cases h
  · split at h
    · cases h
    · exact (Option.some.inj h).symm

/-! ## With averaging -/

omit [LinearOrder K] [IsStrictOrderedRing K] in
theorem sums_scaled (x y : K) (g : List (Chan K)) :
    sumWt (scaled x y g) = sumWt g * y ∧ sumRe (scaled x y g) = sumRe g * (x * y) ∧ sumIm (scaled x y g) = sumIm g * (x * y) := by
  unfold sumWt sumRe sumIm scaled
  rw [sum_filter, sum_filter, sum_filter, sum_filter, sum_filter, sum_filter]
  induction g with
  | nil => simp
  | cons c g ih =>
    obtain ⟨i1, i2, i3⟩ := ih
    simp only [List.map_cons, List.sum_cons, i1, i2, i3]
    cases c.flag
    · refine ⟨?_, ?_, ?_⟩ <;> simp <;> ring
    · simp

theorem avg_scaled (a : Nat) (ha : 0 < a) (x y : K) (hy : y ≠ 0) (g : List (Chan K)) (hn : Nonneg g) :
    [avg false a (scaled x y g)] = scaled x (y * (a : K)) [avg true a g] := by
  obtain ⟨h1, h2, h3⟩ := sums_scaled x y g
  have ha' : (a : K) ≠ 0 := by exact_mod_cast ha.ne'
  rw [avg_eq, avg_eq, h1, h2, h3]
  unfold scaled div
  simp only [Bool.false_eq_true, if_false, if_true, List.map_cons, List.map_nil, div_one]
  by_cases h0 : sumWt g = 0
  · obtain ⟨z1, z2⟩ := sums_zero g hn h0
    simp [h0, z1, z2]
  · have hy' : sumWt g * y ≠ 0 := mul_ne_zero h0 hy
    rw [if_pos hy', if_pos hy', if_pos h0, if_pos h0]
    have hd : sumWt g / (a : K) ≠ 0 := div_ne_zero h0 ha'
    rw [decide_eq_false hy', decide_eq_false hd]
    congr 2
    · field_simp
    · field_simp
    · field_simp

/-- Scaling by temperatures and averaging is the same as averaging and scaling with the new channel width. -/
theorem rechunk_scaled (a : Nat) (ha : 0 < a) (x y : K) (hy : y ≠ 0) (v : List (Chan K)) (hn : Nonneg v) :
    rechunk false a (scaled x y v) = (rechunk true a v).map (scaled x (y * (a : K))) := by
  unfold rechunk
  by_cases h1 : a = 1
  · subst h1
    simp
  · rw [if_neg h1, if_neg h1]
    have hl : (scaled x y v).length = v.length := by unfold scaled; simp
    rw [hl]
    split
    · rw [Option.map_some]
      congr 1
      have e : ∀ l : List (Chan K), scaled x (y * (a : K)) l = l.flatMap (fun c => scaled x (y * (a : K)) [c]) := by
        intro l
        unfold scaled
        rw [List.map_eq_flatMap]
        rfl
      unfold scaled
      rw [List.map_map]
      apply List.map_congr_left
      intro i _
      have := avg_scaled a ha x y hy ((v.drop (i * a)).take a) (fun c hc => hn c (List.mem_of_mem_drop (List.mem_of_mem_take hc)))
      unfold scaled at this
      rw [List.map_take, List.map_drop] at this
      simpa using this
    · rfl

theorem tsys_rechunk (sqrt : K → K) (hs : ∀ x, 0 < x → sqrt x ≠ 0) (jypk wt fres rinteg : K) (hj : jypk ≠ 0) (hw : 0 < wt) (hf : fres ≠ 0)
    (hr : 0 < rinteg) (a : Nat) (ha : 0 < a) (v : List (Chan K)) (hn : Nonneg v) :
    rechunk false a (tsysWt sqrt jypk false wt fres rinteg v) = (rechunk true a v).map (tsysWt sqrt jypk false wt (fres * (a : K)) rinteg) := by
  have hf' : 0 < |fres| := abs_pos.mpr hf
  have ha' : (0 : K) < (a : K) := by exact_mod_cast ha
  have hq : (0 : K) < (jypk * 2) ^ 2 := by positivity
  have hwn : wt * |fres| * (1000000 * (1 / (jypk * 2) ^ 2)) ≠ 0 := by positivity
  have habs : |fres * (a : K)| = |fres| * (a : K) := by rw [abs_mul, abs_of_pos ha']
  have hwn' : wt * (|fres| * (a : K)) * (1000000 * (1 / (jypk * 2) ^ 2)) ≠ 0 := by positivity
  have hnn : jypk * 2 * sqrt (1 / wt * rinteg) ≠ 0 := mul_ne_zero (mul_ne_zero hj (by norm_num)) (hs _ (by positivity))
  have e1 : tsysWt sqrt jypk false wt fres rinteg v = scaled (jypk * 2 * sqrt (1 / wt * rinteg)) (wt * |fres| * (1000000 * (1 / (jypk * 2) ^ 2))) v := by
    unfold tsysWt
    simp only [Bool.false_eq_true, if_false]
    rw [if_pos hwn, scaleRec_ne _ _ hnn]
  have e2 : ∀ v, tsysWt sqrt jypk false wt (fres * (a : K)) rinteg v =
      scaled (jypk * 2 * sqrt (1 / wt * rinteg)) (wt * |fres| * (1000000 * (1 / (jypk * 2) ^ 2)) * (a : K)) v := by
    intro v
    unfold tsysWt
    simp only [Bool.false_eq_true, if_false, habs]
    rw [if_pos hwn', scaleRec_ne _ _ hnn]
    congr 1
    ring
  rw [e1, rechunk_scaled a ha _ _ hwn v hn]
  congr 1
  funext v
  exact (e2 v).symm

end Verif.MirData
