import Mathlib.Analysis.Complex.Norm
import Mathlib.Tactic.FieldSimp

/-!
Model of `UVBeam.peak_normalize`, `src/pyuvdata/uvbeam/uvbeam.py` lines 843–854, and C99.

All values of a channel, over axes, feeds or polarizations and pixels, are one list. A value is `none` when it is not a number; dividing by
zero gives `none` (in numpy the result is nan or, for a number that is not zero, infinite, which cannot happen when the divisor is the
largest modulus). Numbers are real or complex, without rounding.
-/
namespace Verif.Beam

inductive Normalization where
  | physical | peak | solidAngle
deriving DecidableEq

/-- The attributes of a beam that `peak_normalize` reads or sets: for each channel the values and the bandpass. -/
structure NBeam where
  norm : Normalization
  chans : List (List (Option ℂ) × Option ℝ)

/-- `abs(data_array[:, :, i]).max()`, line 851: not a number when one value is not. A channel has at least one value. -/
noncomputable def maxAbs : List (Option ℂ) → Option ℝ
  | [] => some 0
  | v :: l => match v, maxAbs l with
    | some z, some m => some (max ‖z‖ m)
    | _, _ => none

/-- `x /= m`. -/
noncomputable def divBy (m : Option ℝ) (v : Option ℂ) : Option ℂ :=
  match v, m with
  | some z, some m => if m = 0 then none else some (z / m)
  | _, _ => none

/-- `b *= m`. -/
noncomputable def timesBy (m b : Option ℝ) : Option ℝ :=
  match b, m with
  | some b, some m => some (b * m)
  | _, _ => none

/-- The body of the loop, lines 851–853. -/
noncomputable def normChan (c : List (Option ℂ) × Option ℝ) : List (Option ℂ) × Option ℝ :=
  (c.1.map (divBy (maxAbs c.1)), timesBy (maxAbs c.1) c.2)

/-- `peak_normalize`, lines 843–854: the object after the call and whether the call was refused. -/
noncomputable def peakNormalize (o : NBeam) : NBeam × Bool :=
  if o.norm = .solidAngle then (o, true)
  else ({ norm := .peak, chans := o.chans.map normChan }, false)

/-- The largest modulus is what it says: an upper bound that is reached. -/
theorem maxAbs_spec : ∀ {l : List (Option ℂ)} {m : ℝ}, maxAbs l = some m →
    (∀ v ∈ l, ∃ z : ℂ, v = some z ∧ ‖z‖ ≤ m) ∧ 0 ≤ m ∧ (l ≠ [] → ∃ z : ℂ, some z ∈ l ∧ ‖z‖ = m)
  | [], m, h => by simp only [maxAbs, Option.some.injEq] at h; subst h; simp
  | v :: l, m, h => by
      rcases v with _ | z
      · simp [maxAbs] at h
      rcases hl : maxAbs l with _ | k
      · simp [maxAbs, hl] at h
      simp only [maxAbs, hl, Option.some.injEq] at h
      obtain ⟨h1, h2, h3⟩ := maxAbs_spec hl
      subst h
      refine ⟨?_, le_max_of_le_right h2, fun _ => ?_⟩
      · rintro w (_ | ⟨_, hw⟩)
        · exact ⟨z, rfl, le_max_left _ _⟩
        · obtain ⟨y, hy, hle⟩ := h1 w hw
          exact ⟨y, hy, le_max_of_le_right hle⟩
      · rcases le_total k ‖z‖ with hk | hk
        · exact ⟨z, by simp, (max_eq_left hk).symm⟩
        · by_cases hne : l = []
          · subst hne
            simp only [maxAbs, Option.some.injEq] at hl
            subst hl
            exact ⟨z, by simp, (max_eq_left (norm_nonneg z)).symm⟩
          · obtain ⟨y, hy, he⟩ := h3 hne
            exact ⟨y, List.mem_cons_of_mem _ hy, by rw [he, max_eq_right hk]⟩

theorem maxAbs_some : ∀ {l : List (Option ℂ)}, (∀ v ∈ l, v.isSome) → ∃ m, maxAbs l = some m
  | [], _ => ⟨0, rfl⟩
  | v :: l, h => by
      obtain ⟨z, hz⟩ := Option.isSome_iff_exists.mp (h v (by simp))
      obtain ⟨m, hm⟩ := maxAbs_some fun w hw => h w (List.mem_cons_of_mem _ hw)
      subst hz
      exact ⟨max ‖z‖ m, by simp [maxAbs, hm]⟩

/-- A bound that is reached is the largest modulus. -/
theorem maxAbs_unique {l : List (Option ℂ)} {m : ℝ} (h1 : ∀ v ∈ l, ∃ z : ℂ, v = some z ∧ ‖z‖ ≤ m) (h2 : ∃ z : ℂ, some z ∈ l ∧ ‖z‖ = m) :
    maxAbs l = some m := by
  obtain ⟨k, hk⟩ := maxAbs_some (l := l) fun v hv => by obtain ⟨z, rfl, -⟩ := h1 v hv; rfl
  obtain ⟨z, hz, rfl⟩ := h2
  obtain ⟨a1, -, a3⟩ := maxAbs_spec hk
  obtain ⟨y, hy, hyk⟩ := a3 (List.ne_nil_of_mem hz)
  obtain ⟨_, h, hle⟩ := a1 _ hz
  obtain ⟨_, h', hle'⟩ := h1 _ hy
  simp only [Option.some.injEq] at h h'
  subst h; subst h'
  rw [hk, ← hyk]
  exact congrArg some (le_antisymm hle' (hyk ▸ hle))

/-- A channel of numbers that are not all 0. -/
def Usable (c : List (Option ℂ) × Option ℝ) : Prop :=
  (∀ v ∈ c.1, v.isSome) ∧ (∃ z : ℂ, some z ∈ c.1 ∧ z ≠ 0) ∧ c.2.isSome

/-- The value times the bandpass, which is what the data mean whatever the normalization. -/
noncomputable def physicalValue (v : Option ℂ) (b : Option ℝ) : Option ℂ :=
  match v, b with
  | some z, some b => some (z * b)
  | _, _ => none

theorem usable_max {c : List (Option ℂ) × Option ℝ} (h : Usable c) : ∃ m : ℝ, maxAbs c.1 = some m ∧ 0 < m := by
  obtain ⟨h1, ⟨z, hz, hne⟩, -⟩ := h
  obtain ⟨m, hm⟩ := maxAbs_some h1
  obtain ⟨_, hy, hle⟩ := (maxAbs_spec hm).1 _ hz
  simp only [Option.some.injEq] at hy
  subst hy
  exact ⟨m, hm, lt_of_lt_of_le (norm_pos_iff.mpr hne) hle⟩

/-- One channel: the values times the bandpass are what they were, and the largest modulus is 1. -/
theorem normChan_spec {c : List (Option ℂ) × Option ℝ} (h : Usable c) :
    Usable (normChan c) ∧ maxAbs (normChan c).1 = some 1 ∧ (normChan c).1.length = c.1.length ∧
    ∀ (i : Nat) (v w : Option ℂ), c.1[i]? = some v → (normChan c).1[i]? = some w → physicalValue w (normChan c).2 = physicalValue v c.2 := by
  obtain ⟨m, hm, hpos⟩ := usable_max h
  obtain ⟨h1, ⟨z, hz, hne⟩, hb⟩ := h
  obtain ⟨b, hb⟩ := Option.isSome_iff_exists.mp hb
  obtain ⟨a1, -, a3⟩ := maxAbs_spec hm
  have hm0 : m ≠ 0 := ne_of_gt hpos
  have hmc : (m : ℂ) ≠ 0 := by exact_mod_cast hm0
  have hdiv : ∀ y : ℂ, divBy (some m) (some y) = some (y / m) := fun y => by simp [divBy, hm0]
  have hmax : maxAbs (normChan c).1 = some 1 := by
    refine maxAbs_unique ?_ ?_
    · intro v hv
      simp only [normChan, hm, List.mem_map] at hv
      obtain ⟨w, hw, rfl⟩ := hv
      obtain ⟨y, rfl, hle⟩ := a1 w hw
      refine ⟨y / m, hdiv y, ?_⟩
      rw [Complex.norm_div, Complex.norm_real, Real.norm_of_nonneg hpos.le]
      exact (div_le_one hpos).mpr hle
    · obtain ⟨y, hy, he⟩ := a3 (List.ne_nil_of_mem hz)
      refine ⟨y / m, ?_, ?_⟩
      · simp only [normChan, hm, List.mem_map]
        exact ⟨some y, hy, hdiv y⟩
      · rw [Complex.norm_div, Complex.norm_real, Real.norm_of_nonneg hpos.le, he]
        exact div_self hm0
  refine ⟨⟨?_, ?_, ?_⟩, hmax, by simp [normChan], ?_⟩
  · intro v hv
    obtain ⟨y, hy, -⟩ := (maxAbs_spec hmax).1 v hv
    rw [hy]; rfl
  · obtain ⟨y, hy, he⟩ := (maxAbs_spec hmax).2.2 (List.ne_nil_of_mem (by
      simp only [normChan, List.mem_map]; exact ⟨_, hz, rfl⟩))
    exact ⟨y, hy, fun h0 => by rw [h0, norm_zero] at he; exact zero_ne_one he⟩
  · simp [normChan, hm, hb, timesBy]
  · intro i v w hv hw
    simp only [normChan, hm, List.getElem?_map, hv, Option.map_some, Option.some.injEq] at hw
    obtain ⟨y, rfl, -⟩ := a1 v (List.mem_of_getElem? hv)
    rw [hdiv] at hw
    subst hw
    simp only [normChan, hm, hb, timesBy, physicalValue, Complex.ofReal_mul]
    rw [Option.some.injEq]
    field_simp

/-- C99: normalising keeps the value times the bandpass of every channel, whatever the beam was normalised to before. -/
theorem peak_normalize_keeps {o : NBeam} (hn : o.norm ≠ .solidAngle) (hu : ∀ c ∈ o.chans, Usable c) :
    ∃ r, peakNormalize o = (r, false) ∧ r.norm = .peak ∧ r.chans.length = o.chans.length ∧
    ∀ (k : Nat) (c d : List (Option ℂ) × Option ℝ), o.chans[k]? = some c → r.chans[k]? = some d →
      maxAbs d.1 = some 1 ∧ d.1.length = c.1.length ∧
      ∀ (i : Nat) (v w : Option ℂ), c.1[i]? = some v → d.1[i]? = some w → physicalValue w d.2 = physicalValue v c.2 := by
  refine ⟨_, by rw [peakNormalize, if_neg hn], rfl, by simp, fun k c d hc hd => ?_⟩
  simp only [List.getElem?_map, hc, Option.map_some, Option.some.injEq] at hd
  subst hd
  obtain ⟨-, h2, h3, h4⟩ := normChan_spec (hu c (List.mem_of_getElem? hc))
  exact ⟨h2, h3, h4⟩

/-- C99: normalising a second time changes nothing. -/
theorem peak_normalize_twice {o : NBeam} (hn : o.norm ≠ .solidAngle) (hu : ∀ c ∈ o.chans, Usable c) :
    peakNormalize (peakNormalize o).1 = peakNormalize o := by
  have hr : peakNormalize o = ({ norm := .peak, chans := o.chans.map normChan }, false) := by rw [peakNormalize, if_neg hn]
  rw [hr]
  simp only [peakNormalize]
  rw [if_neg (by simp)]
  simp only [Prod.mk.injEq, NBeam.mk.injEq, true_and, and_true, List.map_map]
  refine List.map_congr_left fun c hc => ?_
  obtain ⟨h1, h2, -, -⟩ := normChan_spec (hu c hc)
  have hone : ∀ v ∈ (normChan c).1, divBy (some 1) v = v := by
    intro v hv
    obtain ⟨y, rfl, -⟩ := (maxAbs_spec h2).1 v hv
    simp [divBy]
  obtain ⟨b, hb⟩ := Option.isSome_iff_exists.mp h1.2.2
  show normChan (normChan c) = normChan c
  refine Prod.ext ?_ ?_
  · show (normChan c).1.map (divBy (maxAbs (normChan c).1)) = (normChan c).1
    rw [h2]
    conv_rhs => rw [← List.map_id (normChan c).1]
    exact List.map_congr_left hone
  · show timesBy (maxAbs (normChan c).1) (normChan c).2 = (normChan c).2
    rw [h2, hb]; simp [timesBy]

/-- C99: a beam normalised to its solid angle is refused and unchanged; no other is refused. -/
theorem peak_normalize_refused_iff (o : NBeam) :
    ((peakNormalize o).2 = true ↔ o.norm = .solidAngle) ∧ ((peakNormalize o).2 = true → (peakNormalize o).1 = o) := by
  unfold peakNormalize
  split <;> simp_all

/-- C99 does not hold without a value that is not 0: a channel of zeros has no numbers left, and its bandpass is 0. -/
theorem peak_normalize_zero_counterexample :
    ∃ o : NBeam, o = { norm := .physical, chans := [([some 0, some 0], some 1), ([some 2], some 3)] } ∧
    ∃ r, peakNormalize o = (r, false) ∧ r.chans[0]? = some ([none, none], some 0) ∧ r.chans[1]? = some ([some 1], some 6) := by
  refine ⟨_, rfl, _, rfl, ?_, ?_⟩
  · simp [normChan, maxAbs, divBy, timesBy]
  · simp [normChan, maxAbs, divBy, timesBy]
    norm_num

/-- A case with two channels. -/
example : ∃ o : NBeam, o.norm ≠ .solidAngle ∧ (∀ c ∈ o.chans, Usable c) ∧
    o.chans = [([some 0, some (-4)], some 1), ([some Complex.I, some 2], some 3)] :=
  ⟨{ norm := .peak, chans := [([some 0, some (-4)], some 1), ([some Complex.I, some 2], some 3)] }, by simp, by
    intro c hc
    simp only [List.mem_cons, List.not_mem_nil, or_false] at hc
    rcases hc with rfl | rfl
    · exact ⟨by simp, ⟨-4, by simp, by norm_num⟩, rfl⟩
    · exact ⟨by simp, ⟨2, by simp, by norm_num⟩, rfl⟩, rfl⟩

end Verif.Beam
