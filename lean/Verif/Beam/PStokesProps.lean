import Verif.Beam.PStokes

/-!
C100: what the pseudo-Stokes beams computed from an electric-field beam are; C98 for this conversion; cases and counterexamples for C97–C100.
-/
namespace Verif.Beam
open Verif.Pol (Str)

theorem pstokes_labels (xo : Option Str) : pstokesNames.mapM (fun s => Pol.polstr2num xo (s.map Char.toUpper)) = some [1, 2, 3, 4] := by
  simp only [polstr2num_via]
  rcases xmap_cases xo with h | h | h <;> rw [h] <;> decide +kernel

/-- C98: when the conversion is accepted, and what is left otherwise. -/
theorem pstokes_accepted_iff (xo : Option Str) (o : EBeam) :
    (∃ r, efieldToPStokes xo o = (r, none)) ↔ o.power = false ∧ (∃ feeds, o.feeds = some feeds ∧ 2 ≤ feeds.length) ∧ 2 ≤ o.nvec := by
  unfold efieldToPStokes
  rw [pstokes_labels]
  by_cases hp : o.power = true
  · simp [hp]
  · cases hf : o.feeds with
    | none => simp [hp]
    | some feeds =>
      simp only [hp, Bool.false_eq_true, if_false]
      by_cases h : feeds.length < 2 ∨ o.nvec < 2
      · simp only [h, if_true]
        simp
        omega
      · simp only [h, if_false]
        refine ⟨fun _ => ⟨by simp [hp], ⟨feeds, rfl, by omega⟩, by omega⟩, fun _ => ⟨_, rfl⟩⟩

/-- C98: a beam with one feed is refused with the labels of the polarizations already set. -/
theorem pstokes_one_feed {xo : Option Str} {o : EBeam} {a : Str} (hp : o.power = false) (hf : o.feeds = some [a]) :
    efieldToPStokes xo o = ({ o with pols := some [1, 2, 3, 4] }, some .index) := by
  unfold efieldToPStokes
  rw [pstokes_labels, hf]
  simp [hp]

theorem pstokes_ok {xo : Option Str} {o r : EBeam} (h : efieldToPStokes xo o = (r, none)) :
    r.pols = some [1, 2, 3, 4] ∧ r.power = true ∧ r.nvec = 1 ∧ r.points = o.points ∧ r.feeds = none ∧ r.basis = none ∧
    (∃ feeds, o.feeds = some feeds ∧ r.npols = some (feeds.length ^ 2)) ∧
    ∀ i pt, i < 4 → r.data 0 i pt = ((pstokesValue (fun a f => o.data a f pt) i : ℝ) : ℂ) := by
  unfold efieldToPStokes at h
  rw [pstokes_labels] at h
  split at h
  · simp at h
  · cases hf : o.feeds with
    | none => simp [hf] at h
    | some feeds =>
      simp only [hf] at h
      split at h
      · simp at h
      · simp only [Prod.mk.injEq, and_true] at h
        subst h
        refine ⟨rfl, rfl, rfl, rfl, rfl, rfl, ⟨feeds, rfl, rfl⟩, fun i pt hi => ?_⟩
        simp only [true_and, hi, if_true]
        rw [mueller_eq _ hi]

/-- C100: the values under the labels pI, pQ, pU and pV, which are 1 to 4. -/
theorem pstokes_values {xo : Option Str} {o r : EBeam} (h : efieldToPStokes xo o = (r, none)) {labels : List Int} (hl : r.pols = some labels)
    {i pt : Nat} {n : Int} (hi : labels[i]? = some n) :
    (n = 1 → r.data 0 i pt = (((Complex.normSq (o.data 0 0 pt) + Complex.normSq (o.data 0 1 pt) + Complex.normSq (o.data 1 0 pt)
      + Complex.normSq (o.data 1 1 pt)) / 2 : ℝ) : ℂ)) ∧
    (n = 2 → r.data 0 i pt = ((|Complex.normSq (o.data 0 0 pt) - Complex.normSq (o.data 0 1 pt) - Complex.normSq (o.data 1 0 pt)
      + Complex.normSq (o.data 1 1 pt)| / 2 : ℝ) : ℂ)) ∧
    (n = 3 → r.data 0 i pt = ((|(o.data 0 0 pt * (starRingEnd ℂ) (o.data 1 1 pt)).re
      + (o.data 0 1 pt * (starRingEnd ℂ) (o.data 1 0 pt)).re| : ℝ) : ℂ)) ∧
    (n = 4 → r.data 0 i pt = ((|(o.data 0 0 pt * (starRingEnd ℂ) (o.data 1 1 pt)).re
      - (o.data 0 1 pt * (starRingEnd ℂ) (o.data 1 0 pt)).re| : ℝ) : ℂ)) ∧ (n = 1 ∨ n = 2 ∨ n = 3 ∨ n = 4) := by
  obtain ⟨hp, -, -, -, -, -, -, H⟩ := pstokes_ok h
  rw [hl] at hp; cases hp
  have hi4 : i < 4 := by simpa using (List.getElem?_eq_some_iff.mp hi).1
  have hv := H i pt hi4
  interval_cases i <;> simp only [List.getElem?_cons_zero, List.getElem?_cons_succ, Option.some.injEq] at hi <;> subst hi <;> rw [hv] <;>
    simp [pstokesValue]

theorem re_mul_conj_le (z w : ℂ) : |(z * (starRingEnd ℂ) w).re| ≤ (Complex.normSq z + Complex.normSq w) / 2 := by
  simp only [Complex.mul_re, Complex.conj_re, Complex.conj_im, Complex.normSq_apply]
  rw [abs_le]
  constructor
  · nlinarith [sq_nonneg (z.re + w.re), sq_nonneg (z.im + w.im)]
  · nlinarith [sq_nonneg (z.re - w.re), sq_nonneg (z.im - w.im)]

/-- C100: all four are real and at least 0, and none is larger than pI. -/
theorem pstokes_bounds {xo : Option Str} {o r : EBeam} (h : efieldToPStokes xo o = (r, none)) {i pt : Nat} (hi : i < 4) :
    (r.data 0 i pt).im = 0 ∧ 0 ≤ (r.data 0 i pt).re ∧ (r.data 0 i pt).re ≤ (r.data 0 0 pt).re := by
  obtain ⟨-, -, -, -, -, -, -, H⟩ := pstokes_ok h
  rw [H i pt hi, H 0 pt (by omega)]
  refine ⟨Complex.ofReal_im _, ?_, ?_⟩ <;> simp only [Complex.ofReal_re]
  all_goals
    have n1 := Complex.normSq_nonneg (o.data 0 0 pt); have n2 := Complex.normSq_nonneg (o.data 0 1 pt)
    have n3 := Complex.normSq_nonneg (o.data 1 0 pt); have n4 := Complex.normSq_nonneg (o.data 1 1 pt)
    interval_cases i <;> simp only [pstokesValue]
  · linarith
  · exact div_nonneg (abs_nonneg _) (by norm_num)
  · exact abs_nonneg _
  · exact abs_nonneg _
  · exact le_refl _
  · refine div_le_div_of_nonneg_right ?_ (by norm_num)
    rw [abs_le]; constructor <;> linarith
  · have h1 := abs_le.mp (re_mul_conj_le (o.data 0 0 pt) (o.data 1 1 pt))
    have h2 := abs_le.mp (re_mul_conj_le (o.data 0 1 pt) (o.data 1 0 pt))
    rw [abs_le]; constructor <;> linarith [h1.1, h1.2, h2.1, h2.2]
  · have h1 := abs_le.mp (re_mul_conj_le (o.data 0 0 pt) (o.data 1 1 pt))
    have h2 := abs_le.mp (re_mul_conj_le (o.data 0 1 pt) (o.data 1 0 pt))
    rw [abs_le]; constructor <;> linarith [h1.1, h1.2, h2.1, h2.2]

/-- C100: where the basis vectors are perpendicular and of length 1, pI is the mean of the powers of the two feeds. -/
theorem pstokes_intensity_partial {xo : Option Str} {cross : Bool} {o r r' : EBeam} {a b : Str} {bs : Nat → Nat → Nat → ℝ}
    {labels : List Int} (h : efieldToPStokes xo o = (r, none)) (h' : efieldToPower xo cross false o = (r', none))
    (hf : o.feeds = some [a, b]) (hg : GoodFeeds [a, b]) (hb : o.basis = some bs) (hl : r'.pols = some labels) {i j : Nat} {n m : Int}
    (hn : Pol.polstr2num xo (a ++ a) = some n) (hi : labels[i]? = some n) (hm : Pol.polstr2num xo (b ++ b) = some m)
    (hj : labels[j]? = some m) {pt : Nat} (hpt : pt < o.points) (h0 : bs 0 0 pt ^ 2 + bs 0 1 pt ^ 2 = 1)
    (h1 : bs 1 0 pt ^ 2 + bs 1 1 pt ^ 2 = 1) (hp : bs 0 0 pt * bs 1 0 pt + bs 0 1 pt * bs 1 1 pt = 0) :
    r.data 0 0 pt = (r'.data 0 i pt + r'.data 0 j pt) / 2 := by
  obtain ⟨-, -, -, -, -, -, -, H⟩ := pstokes_ok h
  obtain ⟨hnv, hpts, -, -, -, H'⟩ := power_is_inner_product h' hf hg hb
  rw [H 0 pt (by omega), H'.value hl (f := 0) (g := 0) rfl rfl (Or.inl rfl) hn hi (v := 0) (pt := pt) (by omega) (by omega),
    H'.value hl (f := 1) (g := 1) rfl rfl (Or.inl rfl) hm hj (v := 0) (pt := pt) (by omega) (by omega), powerOf_self, powerOf_self,
    ← Complex.ofReal_add, ← Complex.ofReal_ofNat 2, ← Complex.ofReal_div, Complex.ofReal_inj]
  simp only [pstokesValue, fieldComp, Complex.normSq_apply, Complex.add_re, Complex.add_im, Complex.mul_re, Complex.mul_im,
    Complex.ofReal_re, Complex.ofReal_im]
  linear_combination -((o.data 0 0 pt).re ^ 2 + (o.data 0 0 pt).im ^ 2 + (o.data 0 1 pt).re ^ 2 + (o.data 0 1 pt).im ^ 2) / 2 * h0
    - ((o.data 1 0 pt).re ^ 2 + (o.data 1 0 pt).im ^ 2 + (o.data 1 1 pt).re ^ 2 + (o.data 1 1 pt).im ^ 2) / 2 * h1
    - ((o.data 0 0 pt).re * (o.data 1 0 pt).re + (o.data 0 0 pt).im * (o.data 1 0 pt).im + (o.data 0 1 pt).re * (o.data 1 1 pt).re
      + (o.data 0 1 pt).im * (o.data 1 1 pt).im) * hp

/-! Cases. -/

/-- A beam with feeds x and y, one point, and given responses. -/
noncomputable def beam1 (J : Nat → Nat → ℂ) (b : Nat → Nat → ℝ) : EBeam where
  power := false
  phased := false
  feeds := some [['x'], ['y']]
  npols := none
  pols := none
  nvec := 2
  ncomp := some 2
  points := 1
  data := fun a f _ => J a f
  basis := some fun a c _ => b a c

/-- Perpendicular basis vectors of length 1. -/
noncomputable def unitBasis (a c : Nat) : ℝ := if a = c then 1 else 0

theorem beam1_labels (J : Nat → Nat → ℂ) (b : Nat → Nat → ℝ) : ∃ r, efieldToPower none true false (beam1 J b) = (r, none) ∧
    r.pols = some [-5, -6, -7, -8] := by
  have hl : (feedPairs 2 true).mapM (pairLabel none [['x'], ['y']]) = some [-5, -6, -7, -8] := by decide +kernel
  obtain ⟨r, hr⟩ := (power_accepted_iff none true false (beam1 J b)).mpr
    ⟨rfl, rfl, [['x'], ['y']], rfl, by
      show ((feedPairs 2 true).mapM (pairLabel none [['x'], ['y']])).isSome = true
      rw [hl]; rfl, Or.inr ⟨rfl, rfl⟩⟩
  refine ⟨r, hr, ?_⟩
  obtain ⟨-, -, -, -, -, -, -, -, fs, labels, D, hfs, hl', hpo, -⟩ := efieldToPower_ok hr
  cases hfs
  have : labels = [-5, -6, -7, -8] := by
    have e : crossUsed ([['x'], ['y']] : List Str).length true = true := rfl
    rw [e] at hl'
    exact Option.some.inj (hl'.symm.trans hl)
  rw [hpo, this]

theorem beam1_good : GoodFeeds [['x'], ['y']] := Or.inr ⟨_, by decide, _, by decide, rfl, by decide⟩

/-- The power of a feed of such a beam. -/
theorem beam1_power (J : Nat → Nat → ℂ) (b : Nat → Nat → ℝ) {r : EBeam} (h : efieldToPower none true false (beam1 J b) = (r, none))
    (hl : r.pols = some [-5, -6, -7, -8]) :
    (r.data 0 0 0).re = Complex.normSq (J 0 0 * b 0 0 + J 1 0 * b 1 0) + Complex.normSq (J 0 0 * b 0 1 + J 1 0 * b 1 1) ∧
    (r.data 0 1 0).re = Complex.normSq (J 0 1 * b 0 0 + J 1 1 * b 1 0) + Complex.normSq (J 0 1 * b 0 1 + J 1 1 * b 1 1) :=
  ⟨(power_auto_nonneg h rfl beam1_good rfl hl (f := 0) (a := ['x']) rfl (i := 0) (n := -5) (by decide +kernel) rfl (pt := 0)
      (by simp [beam1])).2.2,
   (power_auto_nonneg h rfl beam1_good rfl hl (f := 1) (a := ['y']) rfl (i := 1) (n := -6) (by decide +kernel) rfl (pt := 0)
      (by simp [beam1])).2.2⟩

/-- C98, counterexample: a beam whose largest modulus is 1, as its normalization says, becomes a power beam with a value of 2 that still says
its largest value is 1 (the conversion does not touch the normalization). -/
theorem power_peak_counterexample : ∃ o r : EBeam, efieldToPower none true false o = (r, none) ∧
    (∀ a f pt, ‖o.data a f pt‖ ≤ 1) ∧ ‖o.data 0 0 0‖ = 1 ∧ (r.data 0 0 0).re = 2 := by
  have one : ‖(1 : ℂ)‖ = 1 := by rw [← Complex.ofReal_one, Complex.norm_real]; simp
  obtain ⟨r, hr, hl⟩ := beam1_labels (fun _ _ => 1) unitBasis
  refine ⟨_, r, hr, fun _ _ _ => le_of_eq one, one, ?_⟩
  rw [(beam1_power _ _ hr hl).1]
  norm_num [unitBasis]

/-- C100, counterexample: the response in pQ of a beam with its feeds exchanged is the opposite, and the value computed is the same. -/
theorem pstokes_sign_counterexample : ∃ o o' r r' : EBeam, efieldToPStokes none o = (r, none) ∧ efieldToPStokes none o' = (r', none) ∧
    (∀ a pt, o'.data a 0 pt = o.data a 1 pt ∧ o'.data a 1 pt = o.data a 0 pt) ∧ r.data 0 1 0 = 1 ∧ r'.data 0 1 0 = 1 := by
  have hacc : ∀ J, ∃ r, efieldToPStokes none (beam1 J unitBasis) = (r, none) := fun J =>
    (pstokes_accepted_iff none _).mpr ⟨rfl, ⟨_, rfl, le_refl _⟩, le_refl _⟩
  obtain ⟨r, hr⟩ := hacc fun a f => if a = f then 1 else 0
  obtain ⟨r', hr'⟩ := hacc fun a f => if a + f = 1 then 1 else 0
  refine ⟨_, _, r, r', hr, hr', fun a pt => ?_, ?_, ?_⟩
  · simp only [beam1]
    constructor <;> split <;> split <;> first | rfl | (exfalso; omega)
  · rw [(pstokes_ok hr).2.2.2.2.2.2.2 1 0 (by omega)]
    norm_num [pstokesValue, beam1]
  · rw [(pstokes_ok hr').2.2.2.2.2.2.2 1 0 (by omega)]
    norm_num [pstokesValue, beam1]

/-- C100, counterexample: the basis vectors are not looked at. The same fields given with basis vectors twice as long have the same power, and
their pI is a quarter. -/
theorem pstokes_basis_counterexample : ∃ o o' r r' q q' : EBeam, efieldToPStokes none o = (r, none) ∧ efieldToPStokes none o' = (r', none) ∧
    efieldToPower none true false o = (q, none) ∧ efieldToPower none true false o' = (q', none) ∧
    q.data 0 0 0 = q'.data 0 0 0 ∧ q.data 0 1 0 = q'.data 0 1 0 ∧ r.data 0 0 0 = 4 ∧ r'.data 0 0 0 = 1 := by
  have hacc : ∀ J b, ∃ r, efieldToPStokes none (beam1 J b) = (r, none) := fun J b =>
    (pstokes_accepted_iff none _).mpr ⟨rfl, ⟨_, rfl, le_refl _⟩, le_refl _⟩
  obtain ⟨r, hr⟩ := hacc (fun a f => if a = f then 2 else 0) unitBasis
  obtain ⟨r', hr'⟩ := hacc (fun a f => if a = f then 1 else 0) (fun a c => 2 * unitBasis a c)
  obtain ⟨q, hq, hl⟩ := beam1_labels (fun a f => if a = f then 2 else 0) unitBasis
  obtain ⟨q', hq', hl'⟩ := beam1_labels (fun a f => if a = f then 1 else 0) (fun a c => 2 * unitBasis a c)
  have hsame := power_basis_free hq hq' rfl rfl rfl rfl rfl (fun f c pt => by
    simp only [fieldComp, beam1, unitBasis]
    push_cast
    split_ifs <;> simp)
  refine ⟨_, _, r, r', q, q', hr, hr', hq, hq', hsame.2 _ hl 0 0 (by decide) (by simp [beam1]), hsame.2 _ hl 1 0 (by decide) (by simp [beam1]), ?_, ?_⟩
  · rw [(pstokes_ok hr).2.2.2.2.2.2.2 0 0 (by omega)]
    norm_num [pstokesValue, beam1, Complex.normSq_apply]
  · rw [(pstokes_ok hr').2.2.2.2.2.2.2 0 0 (by omega)]
    norm_num [pstokesValue, beam1]

/-- The conversions of a beam that is not trivial meet the hypotheses of the theorems. -/
example : ∃ o r r', o.feeds = some [['x'], ['y']] ∧ GoodFeeds [['x'], ['y']] ∧ efieldToPower none true false o = (r, none) ∧
    efieldToPStokes none o = (r', none) ∧ o.data 0 0 0 = Complex.I ∧ o.data 1 0 0 = 3 := by
  obtain ⟨r, hr, -⟩ := beam1_labels (fun a f => if a = 0 then (if f = 0 then Complex.I else 2) else 3) unitBasis
  obtain ⟨r', hr'⟩ := (pstokes_accepted_iff none (beam1 (fun a f => if a = 0 then (if f = 0 then Complex.I else 2) else 3) unitBasis)).mpr
    ⟨rfl, ⟨_, rfl, le_refl _⟩, le_refl _⟩
  exact ⟨_, r, r', rfl, beam1_good, hr, hr', by simp [beam1], by simp [beam1]⟩

/-- A beam with three axes meets the hypotheses of `power_three_vectors`. -/
example : ∃ o r : EBeam, o.nvec = 3 ∧ efieldToPower none true false o = (r, some .threeVectors) := by
  obtain ⟨r, hr, -⟩ := power_three_vectors (xo := none) (cross := true) (o := { beam1 (fun _ _ => 1) unitBasis with nvec := 3 })
    (feeds := [['x'], ['y']]) (labels := [-5, -6, -7, -8]) rfl rfl rfl (by decide +kernel) (by decide)
  exact ⟨_, r, rfl, hr⟩

end Verif.Beam
