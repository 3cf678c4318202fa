import Verif.Beam.PowerProps
import Mathlib.Tactic.LinearCombination

/-!
C97: consequences for the values of a power beam; C98: when the conversion is refused and what it leaves behind.
-/
namespace Verif.Beam
open Verif.Pol (Str)

/-- The value under a label: labels are different, so it does not matter where the label is found. -/
theorem IsPowerOf.value {xo : Option Str} {cross : Bool} {feeds : List Str} {r : EBeam} {W : Nat → Nat → Nat → Nat → ℂ}
    (h : IsPowerOf xo cross feeds r W) {labels : List Int} (hl : r.pols = some labels) {f g : Nat} {a b : Str} (hf : feeds[f]? = some a)
    (hg : feeds[g]? = some b) (hc : f = g ∨ cross = true) {i : Nat} {n : Int} (hn : Pol.polstr2num xo (a ++ b) = some n)
    (hi : labels[i]? = some n) {v pt : Nat} (hv : v < r.nvec) (hpt : pt < r.points) : r.data v i pt = W v f g pt := by
  obtain ⟨ls, hls, hnd, -, -, H⟩ := h
  rw [hl] at hls; cases hls
  obtain ⟨j, m, hm, hj, hw⟩ := H f g a b hf hg hc
  rw [hn] at hm; cases hm
  have hij : i = j := by
    have h1 := List.getElem?_eq_some_iff.mp hi
    exact (List.getElem?_inj h1.1 hnd).mp (hi.trans hj.symm)
  subst hij
  exact hw v pt hv hpt

theorem fieldComp_sq_nonneg (E : Nat → Nat → Nat → ℂ) (b : Nat → Nat → Nat → ℝ) (f pt : Nat) :
    0 ≤ Complex.normSq (fieldComp E b f 0 pt) + Complex.normSq (fieldComp E b f 1 pt) :=
  add_nonneg (Complex.normSq_nonneg _) (Complex.normSq_nonneg _)

section
variable {xo : Option Str} {cross : Bool} {o r : EBeam} {feeds : List Str} {bs : Nat → Nat → Nat → ℝ} {labels : List Int}

/-- C97: a feed with itself has a power that is real and at least 0, the squared length of its field. -/
theorem power_auto_nonneg (h : efieldToPower xo cross false o = (r, none)) (hf : o.feeds = some feeds) (hg : GoodFeeds feeds)
    (hb : o.basis = some bs) (hl : r.pols = some labels) {f : Nat} {a : Str} (ha : feeds[f]? = some a) {i : Nat} {n : Int}
    (hn : Pol.polstr2num xo (a ++ a) = some n) (hi : labels[i]? = some n) {pt : Nat} (hpt : pt < o.points) :
    (r.data 0 i pt).im = 0 ∧ 0 ≤ (r.data 0 i pt).re ∧
    (r.data 0 i pt).re = Complex.normSq (fieldComp o.data bs f 0 pt) + Complex.normSq (fieldComp o.data bs f 1 pt) := by
  obtain ⟨hnv, hpts, -, -, -, H⟩ := power_is_inner_product h hf hg hb
  have := H.value hl ha ha (Or.inl rfl) hn hi (v := 0) (pt := pt) (by omega) (by omega)
  rw [this, powerOf_self]
  exact ⟨Complex.ofReal_im _, by rw [Complex.ofReal_re]; exact fieldComp_sq_nonneg _ _ _ _, Complex.ofReal_re _⟩

/-- C97: exchanging the two feeds of a pair conjugates the value. -/
theorem power_conj (h : efieldToPower xo cross false o = (r, none)) (hf : o.feeds = some feeds) (hg : GoodFeeds feeds)
    (hb : o.basis = some bs) (hl : r.pols = some labels) {f g : Nat} {a b : Str} (ha : feeds[f]? = some a) (hb' : feeds[g]? = some b)
    (hc : f = g ∨ crossUsed feeds.length cross = true) {i j : Nat} {n m : Int} (hn : Pol.polstr2num xo (a ++ b) = some n)
    (hi : labels[i]? = some n) (hm : Pol.polstr2num xo (b ++ a) = some m) (hj : labels[j]? = some m) {pt : Nat} (hpt : pt < o.points) :
    r.data 0 j pt = (starRingEnd ℂ) (r.data 0 i pt) := by
  obtain ⟨hnv, hpts, -, -, -, H⟩ := power_is_inner_product h hf hg hb
  rw [H.value hl ha hb' hc hn hi (v := 0) (pt := pt) (by omega) (by omega),
    H.value hl hb' ha (hc.imp Eq.symm id) hm hj (v := 0) (pt := pt) (by omega) (by omega)]
  simp only [powerOf, map_add, map_mul, Complex.conj_conj]
  ring

/-- Two complex pairs: the squared inner product is at most the product of the squared lengths. -/
theorem two_cauchy (p q u v : ℂ) :
    Complex.normSq (p * (starRingEnd ℂ) u + q * (starRingEnd ℂ) v) ≤
      (Complex.normSq p + Complex.normSq q) * (Complex.normSq u + Complex.normSq v) := by
  have : (Complex.normSq p + Complex.normSq q) * (Complex.normSq u + Complex.normSq v)
      = Complex.normSq (p * (starRingEnd ℂ) u + q * (starRingEnd ℂ) v) + Complex.normSq (p * v - q * u) := by
    simp only [Complex.normSq_apply, Complex.add_re, Complex.add_im, Complex.mul_re, Complex.mul_im, Complex.conj_re, Complex.conj_im,
      Complex.sub_re, Complex.sub_im]
    ring
  rw [this]
  exact le_add_of_nonneg_right (Complex.normSq_nonneg _)

/-- C97: the squared modulus of a cross polarization is at most the product of the two auto polarizations. -/
theorem power_cauchy (h : efieldToPower xo cross false o = (r, none)) (hf : o.feeds = some feeds) (hg : GoodFeeds feeds)
    (hb : o.basis = some bs) (hl : r.pols = some labels) {f g : Nat} {a b : Str} (ha : feeds[f]? = some a) (hb' : feeds[g]? = some b)
    (hc : f = g ∨ crossUsed feeds.length cross = true) {i j k : Nat} {n m l : Int} (hn : Pol.polstr2num xo (a ++ b) = some n)
    (hi : labels[i]? = some n) (hm : Pol.polstr2num xo (a ++ a) = some m) (hj : labels[j]? = some m)
    (hl' : Pol.polstr2num xo (b ++ b) = some l) (hk : labels[k]? = some l) {pt : Nat} (hpt : pt < o.points) :
    Complex.normSq (r.data 0 i pt) ≤ (r.data 0 j pt).re * (r.data 0 k pt).re := by
  obtain ⟨hnv, hpts, -, -, -, H⟩ := power_is_inner_product h hf hg hb
  rw [(power_auto_nonneg h hf hg hb hl ha hm hj hpt).2.2, (power_auto_nonneg h hf hg hb hl hb' hl' hk hpt).2.2,
    H.value hl ha hb' hc hn hi (v := 0) (pt := pt) (by omega) (by omega)]
  exact two_cauchy _ _ _ _

/-- C97: two beams that describe the same fields, with whatever basis vectors, have the same power. -/
theorem power_basis_free {o' r' : EBeam} {bs' : Nat → Nat → Nat → ℝ} (h : efieldToPower xo cross false o = (r, none))
    (h' : efieldToPower xo cross false o' = (r', none)) (hf : o.feeds = some feeds) (hf' : o'.feeds = some feeds)
    (hb : o.basis = some bs) (hb' : o'.basis = some bs') (hpts : o.points = o'.points)
    (hsame : ∀ f c pt, fieldComp o.data bs f c pt = fieldComp o'.data bs' f c pt) :
    r.pols = r'.pols ∧ ∀ labels, r.pols = some labels → ∀ i pt, i < labels.length → pt < o.points → r.data 0 i pt = r'.data 0 i pt := by
  obtain ⟨-, -, -, -, hpt1, -, hnv1, -, fs, labels, D, hfs, hl, hpo, hnp, hD, hd⟩ := efieldToPower_ok h
  obtain ⟨-, -, -, -, hpt2, -, hnv2, -, fs', labels', D', hfs', hl', hpo', hnp', hD', hd'⟩ := efieldToPower_ok h'
  rw [hf] at hfs; cases hfs
  rw [hf'] at hfs'; cases hfs'
  rw [hl] at hl'; cases hl'
  have hDD : D = D' := by
    simp only [powerData, Bool.false_eq_true, if_false, hb, hb'] at hD hD'
    split at hD
    · split at hD'
      · simp only [Except.ok.injEq] at hD hD'
        rw [← hD, ← hD']
        funext v i pt
        simp only [projected_eq, powerOf, hsame]
      · cases hD'
    · cases hD
  refine ⟨by rw [hpo, hpo'], fun _ _ i pt _ _ => ?_⟩
  rw [hd, hd', hDD, hnv1, hnv2, hpts]; rfl

/-- C97: with basis vectors that are perpendicular and of length 1, the power is the sum of the powers along the two axes. -/
theorem power_sum_of_axes {r' : EBeam} {labels' : List Int} (h : efieldToPower xo cross false o = (r, none))
    (hk : efieldToPower xo cross true o = (r', none))
    (hf : o.feeds = some feeds) (hg : GoodFeeds feeds) (hb : o.basis = some bs) (hl : r.pols = some labels) (hl' : r'.pols = some labels')
    {f g : Nat} {a b : Str} (ha : feeds[f]? = some a) (hb' : feeds[g]? = some b)
    (hc : f = g ∨ crossUsed feeds.length cross = true) {i j : Nat} {n : Int} (hn : Pol.polstr2num xo (a ++ b) = some n)
    (hi : labels[i]? = some n) (hj : labels'[j]? = some n) {pt : Nat} (hpt : pt < o.points) (hnv : o.nvec = 2)
    (h0 : bs 0 0 pt ^ 2 + bs 0 1 pt ^ 2 = 1) (h1 : bs 1 0 pt ^ 2 + bs 1 1 pt ^ 2 = 1) (hp : bs 0 0 pt * bs 1 0 pt + bs 0 1 pt * bs 1 1 pt = 0) :
    r.data 0 i pt = r'.data 0 j pt + r'.data 1 j pt := by
  obtain ⟨hnv1, hpts, -, -, -, H⟩ := power_is_inner_product h hf hg hb
  obtain ⟨hnv2, hpts2, -, -, -, H'⟩ := power_kept_axes hk hf hg
  rw [H.value hl ha hb' hc hn hi (v := 0) (pt := pt) (by omega) (by omega),
    H'.value hl' ha hb' hc hn hj (v := 0) (pt := pt) (by omega) (by omega),
    H'.value hl' ha hb' hc hn hj (v := 1) (pt := pt) (by omega) (by omega)]
  have e0 : ((bs 0 0 pt : ℝ) : ℂ) ^ 2 + ((bs 0 1 pt : ℝ) : ℂ) ^ 2 = 1 := by exact_mod_cast h0
  have e1 : ((bs 1 0 pt : ℝ) : ℂ) ^ 2 + ((bs 1 1 pt : ℝ) : ℂ) ^ 2 = 1 := by exact_mod_cast h1
  have ep : ((bs 0 0 pt : ℝ) : ℂ) * (bs 1 0 pt : ℝ) + ((bs 0 1 pt : ℝ) : ℂ) * (bs 1 1 pt : ℝ) = 0 := by exact_mod_cast hp
  simp only [powerOf, fieldComp, map_add, map_mul, Complex.conj_ofReal]
  linear_combination (o.data 0 f pt * (starRingEnd ℂ) (o.data 0 g pt)) * e0 + (o.data 1 f pt * (starRingEnd ℂ) (o.data 1 g pt)) * e1
    + (o.data 0 f pt * (starRingEnd ℂ) (o.data 1 g pt) + o.data 1 f pt * (starRingEnd ℂ) (o.data 0 g pt)) * ep

/-- C97: fields that are smaller by a real factor have a power smaller by its square. -/
theorem power_scaled (E : Nat → Nat → Nat → ℂ) (b : Nat → Nat → Nat → ℝ) (s : ℝ) (f g pt : Nat) :
    powerOf (fun v f pt => E v f pt / s) b f g pt = powerOf E b f g pt / (s : ℂ) ^ 2 := by
  simp only [powerOf, fieldComp, map_add, map_mul, map_div₀, Complex.conj_ofReal]
  ring

end

/-- C98: when the conversion is accepted. -/
theorem power_accepted_iff (xo : Option Str) (cross keep : Bool) (o : EBeam) :
    (∃ r, efieldToPower xo cross keep o = (r, none)) ↔ o.power = false ∧ o.phased = false ∧ ∃ feeds, o.feeds = some feeds ∧
      ((feedPairs feeds.length (crossUsed feeds.length cross)).mapM (pairLabel xo feeds)).isSome ∧
      (keep = true ∨ (o.nvec = 2 ∧ o.basis.isSome)) := by
  constructor
  · rintro ⟨r, h⟩
    obtain ⟨h1, h2, -, -, -, -, -, -, feeds, labels, D, hf, hl, -, -, hD, -⟩ := efieldToPower_ok h
    refine ⟨h1, h2, feeds, hf, by rw [hl]; rfl, ?_⟩
    unfold powerData at hD
    split at hD
    · rename_i hk; exact Or.inl hk
    · split at hD
      · rename_i hn
        split at hD
        · cases hD
        · rename_i b hb; exact Or.inr ⟨hn, by rw [hb]; rfl⟩
      · cases hD
  · rintro ⟨h1, h2, feeds, hf, hl, hk⟩
    obtain ⟨labels, hl⟩ := Option.isSome_iff_exists.mp hl
    have hD : ∃ D, powerData (crossUsed feeds.length cross) keep (feedPairs feeds.length (crossUsed feeds.length cross)) o.nvec o.data
        o.basis = .ok D := by
      unfold powerData
      cases keep with
      | true => exact ⟨_, rfl⟩
      | false =>
        obtain ⟨hn, hb⟩ := hk.resolve_left (by simp)
        obtain ⟨b, hb⟩ := Option.isSome_iff_exists.mp hb
        simp only [Bool.false_eq_true, if_false, hn, if_true, hb]
        exact ⟨_, rfl⟩
    obtain ⟨D, hD⟩ := hD
    unfold efieldToPower
    simp only [h1, h2, Bool.false_eq_true, if_false, hf, hl, hD]
    exact ⟨_, rfl⟩

/-- C98: a beam that is refused for what it is stays as it was. -/
theorem power_refused_unchanged {xo : Option Str} {cross keep : Bool} {o : EBeam} (h : o.power = true ∨ o.phased = true) :
    ∃ e, efieldToPower xo cross keep o = (o, some e) := by
  unfold efieldToPower
  by_cases hp : o.power = true
  · exact ⟨_, by rw [if_pos hp]⟩
  · exact ⟨_, by rw [if_neg hp, if_pos (h.resolve_left hp)]⟩

/-- C98: a beam with vectors of three axes, converted without keeping the basis vectors, is refused, and by then says that it is a power beam
with one axis, while its values are still the fields. -/
theorem power_three_vectors {xo : Option Str} {cross : Bool} {o : EBeam} {feeds : List Str} {labels : List Int} (hp : o.power = false)
    (hph : o.phased = false) (hf : o.feeds = some feeds)
    (hl : (feedPairs feeds.length (crossUsed feeds.length cross)).mapM (pairLabel xo feeds) = some labels) (hn : o.nvec ≠ 2) :
    ∃ r, efieldToPower xo cross false o = (r, some .threeVectors) ∧ r.power = true ∧ r.nvec = 1 ∧ r.pols = some labels ∧ r.data = o.data ∧
      r.feeds = o.feeds := by
  have hD : powerData (crossUsed feeds.length cross) false (feedPairs feeds.length (crossUsed feeds.length cross)) o.nvec o.data o.basis
      = .error .threeVectors := by
    unfold powerData
    rw [if_neg (by simp), if_neg hn]
  unfold efieldToPower
  simp only [hp, hph, Bool.false_eq_true, if_false, hf, hl, hD]
  exact ⟨_, rfl, rfl, rfl, rfl, rfl, hf.symm ▸ rfl⟩

end Verif.Beam
