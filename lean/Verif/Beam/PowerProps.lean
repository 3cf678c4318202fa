import Verif.Beam.Power
import Mathlib.Tactic.Ring
import Mathlib.Tactic.IntervalCases
import Mathlib.Tactic.Linarith

/-!
C97: what the power beam computed from an electric-field beam is.
-/
namespace Verif.Beam
open Verif.Pol (Str)

/-- Component `c` of the field that feed `f` responds to at a point: the stored numbers are coefficients of the basis vectors. -/
noncomputable def fieldComp (E : Nat → Nat → Nat → ℂ) (b : Nat → Nat → Nat → ℝ) (f c pt : Nat) : ℂ :=
  E 0 f pt * b 0 c pt + E 1 f pt * b 1 c pt

/-- The power of a pair of feeds: the inner product of the two fields. -/
noncomputable def powerOf (E : Nat → Nat → Nat → ℂ) (b : Nat → Nat → Nat → ℝ) (f g pt : Nat) : ℂ :=
  fieldComp E b f 0 pt * (starRingEnd ℂ) (fieldComp E b g 0 pt) + fieldComp E b f 1 pt * (starRingEnd ℂ) (fieldComp E b g 1 pt)

theorem projected_eq (E : Nat → Nat → Nat → ℂ) (b : Nat → Nat → Nat → ℝ) (f g pt : Nat) : projected E b f g pt = powerOf E b f g pt := by
  simp only [projected, powerOf, fieldComp, map_add, map_mul, Complex.conj_ofReal, List.range_succ, List.range_zero, List.nil_append,
    List.cons_append, List.map_cons, List.map_nil, List.sum_cons, List.sum_nil]
  ring

/-- The power of a feed with itself. -/
theorem powerOf_self (E : Nat → Nat → Nat → ℂ) (b : Nat → Nat → Nat → ℝ) (f pt : Nat) :
    powerOf E b f f pt = ((Complex.normSq (fieldComp E b f 0 pt) + Complex.normSq (fieldComp E b f 1 pt) : ℝ) : ℂ) := by
  simp [powerOf, Complex.mul_conj]

/-- The names a feed can have. -/
def feedNames : List Str := [['x'], ['y'], ['n'], ['e'], ['r'], ['l']]

/-- The other feed of a pair: x and y, n and e, r and l. -/
def partner (a b : Str) : Bool :=
  decide ((a, b) ∈ [(['x'], ['y']), (['y'], ['x']), (['n'], ['e']), (['e'], ['n']), (['r'], ['l']), (['l'], ['r'])])

/-- Feeds as a beam has them: one of the six, or two that belong together. -/
def GoodFeeds (feeds : List Str) : Prop :=
  (∃ a ∈ feedNames, feeds = [a]) ∨ ∃ a ∈ feedNames, ∃ b ∈ feedNames, feeds = [a, b] ∧ partner a b = true

theorem xmap_cases (xo : Option Str) : xo.bind Pol.xOrientPolMap = none ∨ xo.bind Pol.xOrientPolMap = some ('e', 'n') ∨
    xo.bind Pol.xOrientPolMap = some ('n', 'e') := by
  rcases h : xo.bind Pol.xOrientPolMap with _ | ⟨c, d⟩
  · exact Or.inl rfl
  · cases xo with
    | none => simp at h
    | some s =>
      simp only [Option.bind_some, Pol.xOrientPolMap, Option.map_eq_some_iff] at h
      obtain ⟨e, _, h⟩ := h
      cases e
      · exact Or.inr (Or.inr (by simpa using h.symm))
      · exact Or.inr (Or.inl (by simpa using h.symm))

/-- The number of a polarization, with the dictionary as a function of what the orientation means. -/
theorem polstr2num_via (xo : Option Str) (s : Str) : Pol.polstr2num xo s =
    (Pol.lowerKeys (match xo.bind Pol.xOrientPolMap with
      | some (ex, ey) => Pol.polStr2Num.foldl (fun acc p => Pol.Dict.set acc (Pol.renameXY ex ey p.1) p.2) Pol.polStr2Num
      | none => Pol.polStr2Num)).get (Pol.lower s) := rfl

private def facts4 : Option Int → Option Int → Option Int → Option Int → Bool
  | some aa, some bb, some ab, some ba =>
    isAutoPol aa && isAutoPol bb && !isAutoPol ab && !isAutoPol ba && decide [aa, bb, ab, ba].Nodup
  | some aa, some bb, _, _ => isAutoPol aa && isAutoPol bb
  | _, _, _, _ => true

private theorem facts4_all (xo : Option Str) : ∀ a ∈ feedNames, ∀ b ∈ feedNames, partner a b = true →
    facts4 (Pol.polstr2num xo (a ++ a)) (Pol.polstr2num xo (b ++ b)) (Pol.polstr2num xo (a ++ b)) (Pol.polstr2num xo (b ++ a)) = true := by
  simp only [polstr2num_via]
  rcases xmap_cases xo with h | h | h <;> rw [h] <;> decide +kernel

/-- The numbers of the polarizations of two feeds are different, and those of a feed with itself are the auto polarizations. -/
theorem label_facts (xo : Option Str) {a b : Str} (ha : a ∈ feedNames) (hb : b ∈ feedNames) (hab : partner a b = true) {aa bb ab ba : Int}
    (h1 : Pol.polstr2num xo (a ++ a) = some aa) (h2 : Pol.polstr2num xo (b ++ b) = some bb)
    (h3 : Pol.polstr2num xo (a ++ b) = some ab) (h4 : Pol.polstr2num xo (b ++ a) = some ba) :
    isAutoPol aa = true ∧ isAutoPol bb = true ∧ isAutoPol ab = false ∧ isAutoPol ba = false ∧ [aa, bb, ab, ba].Nodup := by
  have := facts4_all xo a ha b hb hab
  rw [h1, h2, h3, h4] at this
  simpa [facts4, and_assoc] using this

private def pairs2 : Option Int → Option Int → Bool
  | some aa, some bb => decide (aa ≠ bb)
  | _, _ => true

private theorem pairs2_all (xo : Option Str) : ∀ a ∈ feedNames, ∀ b ∈ feedNames, partner a b = true →
    pairs2 (Pol.polstr2num xo (a ++ a)) (Pol.polstr2num xo (b ++ b)) = true := by
  simp only [polstr2num_via]
  rcases xmap_cases xo with h | h | h <;> rw [h] <;> decide +kernel

theorem label_upper (xo : Option Str) : ∀ a ∈ feedNames, ∀ b ∈ feedNames,
    Pol.polstr2num xo ((a ++ b).map Char.toUpper) = Pol.polstr2num xo (a ++ b) := by
  have h : ∀ a ∈ feedNames, ∀ b ∈ feedNames, Pol.lower ((a ++ b).map Char.toUpper) = Pol.lower (a ++ b) := by decide +kernel
  intro a ha b hb
  simp only [polstr2num_via, h a ha b hb]

/-- Taking absolute values of the auto polarizations does nothing when they are real. -/
theorem fixAutos_id {pols : List Int} {nvec points : Nat} {D : Nat → Nat → Nat → ℂ}
    (h : ∀ v i pt p, v < nvec → pt < points → pols[i]? = some p → isAutoPol p = true → (D v i pt).im = 0) :
    fixAutos pols nvec points D = D := by
  unfold fixAutos
  rw [if_neg]
  rintro ⟨v, i, pt, p, hv, hpt, hp, ha, hne⟩
  exact hne (h v i pt p hv hpt hp ha)

/-- Reading the labels off one by one. -/
theorem mapM_getElem {α β : Type} (f : α → Option β) : ∀ {l : List α} {r : List β}, l.mapM f = some r →
    r.length = l.length ∧ ∀ (i : Nat) (x : α), l[i]? = some x → r[i]? = f x
  | [], r, h => by
      simp only [List.mapM_nil, Option.pure_def, Option.some.injEq] at h
      subst h; simp
  | x :: l, r, h => by
      rw [List.mapM_cons] at h
      simp only [Option.bind_eq_bind, Option.pure_def, Option.bind_eq_some_iff, Option.some.injEq] at h
      obtain ⟨y, hy, r', hr, rfl⟩ := h
      obtain ⟨hl, hr⟩ := mapM_getElem f hr
      refine ⟨by simp [hl], fun i z hz => ?_⟩
      cases i with
      | zero => simp at hz; subst hz; simp [hy]
      | succ i => simpa using hr i z (by simpa using hz)

/-- What one value of a power beam with one value for each pair of feeds has to be. -/
def IsPowerOf (xo : Option Str) (cross : Bool) (feeds : List Str) (r : EBeam) (want : Nat → Nat → Nat → Nat → ℂ) : Prop :=
  (∃ labels, r.pols = some labels ∧ labels.Nodup ∧ r.npols = some labels.length ∧
    labels.length = (if cross then feeds.length ^ 2 else feeds.length) ∧
    ∀ f g a b, feeds[f]? = some a → feeds[g]? = some b → (f = g ∨ cross = true) →
      ∃ i n, Pol.polstr2num xo (a ++ b) = some n ∧ labels[i]? = some n ∧
        ∀ v pt, v < r.nvec → pt < r.points → r.data v i pt = want v f g pt)

/-- An accepted call: what the object is afterwards. -/
theorem efieldToPower_ok {xo : Option Str} {cross keep : Bool} {o r : EBeam} (h : efieldToPower xo cross keep o = (r, none)) :
    o.power = false ∧ o.phased = false ∧ r.power = true ∧ r.phased = false ∧ r.points = o.points ∧ r.feeds = none ∧
    r.nvec = (if keep then o.nvec else 1) ∧ r.basis = (if keep then o.basis else none) ∧
    ∃ feeds labels D, o.feeds = some feeds ∧
      (feedPairs feeds.length (crossUsed feeds.length cross)).mapM (pairLabel xo feeds) = some labels ∧ r.pols = some labels ∧
      r.npols = some (if crossUsed feeds.length cross then feeds.length ^ 2 else feeds.length) ∧
      powerData (crossUsed feeds.length cross) keep (feedPairs feeds.length (crossUsed feeds.length cross)) o.nvec o.data o.basis = .ok D ∧
      r.data = if crossUsed feeds.length cross then fixAutos labels r.nvec o.points D else D := by
  unfold efieldToPower at h
  split at h
  · simp at h
  · rename_i hp
    split at h
    · simp at h
    · rename_i hph
      split at h
      · simp at h
      · rename_i feeds hf
        dsimp only at h
        split at h
        · simp at h
        · rename_i labels hl
          split at h
          · simp at h
          · rename_i D hD
            simp only [Prod.mk.injEq, and_true] at h
            subst h
            exact ⟨by simpa using hp, by simpa using hph, rfl, by simpa using hph, rfl, rfl, rfl, rfl, feeds, labels, D, hf, hl, rfl, rfl, hD, rfl⟩

/-- The labels of an accepted call with proper feeds, and where the value of each pair of feeds is. -/
theorem isPowerOf_of {xo : Option Str} {cross : Bool} {feeds : List Str} {labels : List Int} {r : EBeam} {D : Nat → Nat → Nat → ℂ}
    {W : Nat → Nat → Nat → Nat → ℂ} (hg : GoodFeeds feeds)
    (hl : (feedPairs feeds.length (crossUsed feeds.length cross)).mapM (pairLabel xo feeds) = some labels) (hp : r.pols = some labels)
    (hn : r.npols = some (if crossUsed feeds.length cross then feeds.length ^ 2 else feeds.length))
    (hd : r.data = if crossUsed feeds.length cross then fixAutos labels r.nvec r.points D else D)
    (hD : ∀ i f g v pt, (feedPairs feeds.length (crossUsed feeds.length cross))[i]? = some (f, g) → v < r.nvec →
      D v i pt = if crossUsed feeds.length cross then W v f g pt else ((W v f g pt).re : ℂ))
    (hW : ∀ v f pt, (W v f f pt).im = 0) : IsPowerOf xo (crossUsed feeds.length cross) feeds r W := by
  obtain ⟨hlen, hlab⟩ := mapM_getElem _ hl
  have hre : ∀ v f pt, (((W v f f pt).re : ℝ) : ℂ) = W v f f pt := fun v f pt => Complex.ext rfl (by simp [hW v f pt])
  rcases hg with ⟨a, ha, rfl⟩ | ⟨a, ha, b, hb, rfl, hab⟩
  · simp only [List.length_singleton, crossUsed, if_true, Bool.false_eq_true, if_false] at *
    have h0 := hlab 0 (0, 0) rfl
    simp only [pairLabel, List.getElem?_cons_zero, label_upper xo a ha a ha] at h0
    have hlen' : labels.length = 1 := by rw [hlen]; rfl
    obtain ⟨n, rfl⟩ := List.length_eq_one_iff.mp hlen'
    refine ⟨[n], hp, by simp, hn, rfl, fun f g a' b' hf hg hfg => ?_⟩
    have hf0 : f = 0 := by have := (List.getElem?_eq_some_iff.mp hf).1; simpa using this
    have hg0 : g = 0 := by have := (List.getElem?_eq_some_iff.mp hg).1; simpa using this
    subst hf0; subst hg0
    simp only [List.getElem?_cons_zero, Option.some.injEq] at hf hg h0
    subst hf; subst hg
    refine ⟨0, n, h0.symm, rfl, fun v pt hv _ => ?_⟩
    rw [hd, hD 0 0 0 v pt rfl hv, hre]
  · cases cross with
    | false =>
      have hc : crossUsed [a, b].length false = false := by simp [crossUsed]
      generalize crossUsed [a, b].length false = c at *
      subst hc
      simp only [Bool.false_eq_true, if_false] at *
      have h0 := hlab 0 (0, 0) rfl
      have h1 := hlab 1 (1, 1) rfl
      simp only [pairLabel, List.getElem?_cons_zero, List.getElem?_cons_succ, label_upper xo a ha a ha, label_upper xo b hb b hb] at h0 h1
      have hlen' : labels.length = 2 := by rw [hlen]; rfl
      obtain ⟨n, m, rfl⟩ := List.length_eq_two.mp hlen'
      simp only [List.getElem?_cons_zero, List.getElem?_cons_succ] at h0 h1
      refine ⟨[n, m], hp, ?_, hn, rfl, fun f g a' b' hf hg hfg => ?_⟩
      · have := pairs2_all xo a ha b hb hab
        rw [← h0, ← h1] at this
        simpa [pairs2] using this
      · have hfg : f = g := by simpa using hfg
        subst hfg
        have hf2 : f < 2 := by simpa using (List.getElem?_eq_some_iff.mp hf).1
        rw [hf] at hg; cases hg
        interval_cases f
        · simp only [List.getElem?_cons_zero, Option.some.injEq] at hf
          subst hf
          exact ⟨0, n, h0.symm, rfl, fun v pt hv _ => by rw [hd, hD 0 0 0 v pt rfl hv, hre]⟩
        · simp only [List.getElem?_cons_zero, List.getElem?_cons_succ, Option.some.injEq] at hf
          subst hf
          exact ⟨1, m, h1.symm, rfl, fun v pt hv _ => by rw [hd, hD 1 1 1 v pt rfl hv, hre]⟩
    | true =>
      have hc : crossUsed [a, b].length true = true := by simp [crossUsed]
      generalize crossUsed [a, b].length true = c at *
      subst hc
      simp only [if_true] at *
      have h0 := hlab 0 (0, 0) rfl
      have h1 := hlab 1 (1, 1) rfl
      have h2 := hlab 2 (0, 1) rfl
      have h3 := hlab 3 (1, 0) rfl
      simp only [pairLabel, List.getElem?_cons_zero, List.getElem?_cons_succ, label_upper xo a ha a ha, label_upper xo b hb b hb,
        label_upper xo a ha b hb, label_upper xo b hb a ha] at h0 h1 h2 h3
      have hlen' : labels.length = 4 := by rw [hlen]; rfl
      match labels, hlen' with
      | [n, m, p, q], _ =>
        simp only [List.getElem?_cons_zero, List.getElem?_cons_succ] at h0 h1 h2 h3
        obtain ⟨e1, e2, e3, e4, e5⟩ := label_facts xo ha hb hab h0.symm h1.symm h2.symm h3.symm
        have hfix : fixAutos [n, m, p, q] r.nvec r.points D = D := fixAutos_id fun v i pt x hv _ hx hax => by
          match i, hx with
          | 0, _ => rw [hD 0 0 0 v pt rfl hv]; exact hW v 0 pt
          | 1, _ => rw [hD 1 1 1 v pt rfl hv]; exact hW v 1 pt
          | 2, hx => simp at hx; subst hx; rw [e3] at hax; cases hax
          | 3, hx => simp at hx; subst hx; rw [e4] at hax; cases hax
        rw [hfix] at hd
        refine ⟨[n, m, p, q], hp, e5, hn, rfl, fun f g a' b' hf hg _ => ?_⟩
        have hf2 : f < 2 := by simpa using (List.getElem?_eq_some_iff.mp hf).1
        have hg2 : g < 2 := by simpa using (List.getElem?_eq_some_iff.mp hg).1
        interval_cases f <;> interval_cases g <;>
          simp only [List.getElem?_cons_zero, List.getElem?_cons_succ, Option.some.injEq] at hf hg <;> subst hf <;> subst hg
        · exact ⟨0, n, h0.symm, rfl, fun v pt hv _ => by rw [hd, hD 0 0 0 v pt rfl hv]⟩
        · exact ⟨2, p, h2.symm, rfl, fun v pt hv _ => by rw [hd, hD 2 0 1 v pt rfl hv]⟩
        · exact ⟨3, q, h3.symm, rfl, fun v pt hv _ => by rw [hd, hD 3 1 0 v pt rfl hv]⟩
        · exact ⟨1, m, h1.symm, rfl, fun v pt hv _ => by rw [hd, hD 1 1 1 v pt rfl hv]⟩

/-- C97: the polarizations of the power beam are the pairs of feeds, each once, and the value of a pair is the inner product of the fields that
the two feeds respond to. -/
theorem power_is_inner_product {xo : Option Str} {cross : Bool} {o r : EBeam} {feeds : List Str} {b : Nat → Nat → Nat → ℝ}
    (h : efieldToPower xo cross false o = (r, none)) (hf : o.feeds = some feeds) (hg : GoodFeeds feeds) (hb : o.basis = some b) :
    r.nvec = 1 ∧ r.points = o.points ∧ r.power = true ∧ r.feeds = none ∧ r.basis = none ∧
    IsPowerOf xo (crossUsed feeds.length cross) feeds r (fun _ f g pt => powerOf o.data b f g pt) := by
  obtain ⟨-, -, hp, -, hpt, hfe, hnv, hba, feeds', labels, D, hf', hl, hpo, hnp, hD, hd⟩ := efieldToPower_ok h
  rw [hf] at hf'; cases hf'
  refine ⟨hnv, hpt, hp, hfe, hba, ?_⟩
  refine isPowerOf_of (D := D) hg hl hpo hnp (by rw [hpt]; exact hd) ?_ fun v f pt => by rw [powerOf_self]; exact Complex.ofReal_im _
  intro i f g v pt hi hv
  have hv0 : v = 0 := by rw [hnv] at hv; simpa using hv
  simp only [powerData, Bool.false_eq_true, if_false, hb] at hD
  split at hD
  · simp only [Except.ok.injEq] at hD
    rw [← hD]
    simp only [hi, hv0, if_true, projected_eq]
  · cases hD

/-- C97: with `keep_basis_vector`, the value of a pair of feeds along an axis is the product of the coefficients along that axis. -/
theorem power_kept_axes {xo : Option Str} {cross : Bool} {o r : EBeam} {feeds : List Str}
    (h : efieldToPower xo cross true o = (r, none)) (hf : o.feeds = some feeds) (hg : GoodFeeds feeds) :
    r.nvec = o.nvec ∧ r.points = o.points ∧ r.power = true ∧ r.feeds = none ∧ r.basis = o.basis ∧
    IsPowerOf xo (crossUsed feeds.length cross) feeds r (fun v f g pt => o.data v f pt * (starRingEnd ℂ) (o.data v g pt)) := by
  obtain ⟨-, -, hp, -, hpt, hfe, hnv, hba, feeds', labels, D, hf', hl, hpo, hnp, hD, hd⟩ := efieldToPower_ok h
  rw [hf] at hf'; cases hf'
  refine ⟨hnv, hpt, hp, hfe, hba, ?_⟩
  refine isPowerOf_of (D := D) hg hl hpo hnp (by rw [hpt]; exact hd) ?_ fun v f pt => by rw [Complex.mul_conj]; exact Complex.ofReal_im _
  intro i f g v pt hi hv
  simp only [powerData, if_true, Except.ok.injEq] at hD
  rw [← hD]
  simp only [hi]

end Verif.Beam
