import Verif.BeamFits.Model
import Verif.Fits.Lemmas
import Mathlib.Tactic.Linarith

/-!
C117: what a beamfits file keeps of a beam, and which beams can be written but not read.
-/
namespace Verif.BeamFits

open Verif.Fits

variable {K : Type} [Field K] [LinearOrder K]

theorem write_facts {T : BTol K} {b : Beam K} {f : BFile K} (h : write T b = .ok f) :
    freqOf T b.freqs = .ok f.freq ∧ (b.healpix = false → axisOf T .axis1 b.axis1 = .ok f.ax1 ∧ axisOf T .axis2 b.axis2 = .ok f.ax2) ∧
    polOf b = .ok f.pol ∧ f.healpix = b.healpix ∧ f.efield = b.efield ∧ f.pixels = (if b.healpix then b.pixels else []) ∧
    f.feeds = (if b.efield then b.feeds else []) ∧ f.cols = b.cols ∧ f.shape = (arrayOf b).1 ∧ f.val = (arrayOf b).2 := by
  unfold write at h
  split at h
  · cases h
  rename_i fr hfr
  split at h
  · cases h
  rename_i a1 h1
  split at h
  · cases h
  rename_i a2 h2
  split at h
  · cases h
  rename_i po hpo
  injection h with h
  subst h
  refine ⟨hfr, fun hh => ?_, hpo, rfl, rfl, rfl, rfl, rfl, rfl, rfl⟩
  rw [hh] at h1 h2
  exact ⟨h1, h2⟩

/-- C117 is false for real power beams with more than one polarization: the file is written, and is refused when it is read. -/
theorem real_power_counterexample {T : BTol K} {b : Beam K} {f : BFile K} (h : write T b = .ok f) (he : b.efield = false) (hc : b.cplx = false)
    (hp : 1 < b.pols.length) : read T none none none f = .error .windows := by
  obtain ⟨-, -, -, h1, h2, h3, -, -, h4, -⟩ := write_facts h
  have hs : f.shape = [b.nvec, b.pols.length, 1, b.freqs.length] ++ b.space := by rw [h4]; simp [arrayOf, he, hc, Beam.np]
  unfold read
  cases hh : b.healpix with
  | true => simp [h1, hh, hs, h3, Beam.space, naxis, rangeOf, axFreq, hp]
  | false => simp [h1, hh, hs, Beam.space, naxis, rangeOf, axFreq, hp]

section order
variable [IsStrictOrderedRing K]

theorem isConstR_spec {rtol atol M : K} (ht : 0 ≤ rtol) (ha : 0 ≤ atol) {l : List K} (hM : ∀ x ∈ l, |x| ≤ M) (h : isConstR rtol atol l = true) :
    ∀ x ∈ l, ∀ y ∈ l, |x - y| ≤ atol + rtol * M := by
  intro x hx y hy
  have hM0 : 0 ≤ M := (abs_nonneg x).trans (hM x hx)
  have hpos : 0 ≤ atol + rtol * M := add_nonneg ha (mul_nonneg ht hM0)
  unfold isConstR at h
  split at h
  · rename_i a b ha' hb
    obtain ⟨-, h1⟩ := List.min?_eq_some_iff.mp ha'
    obtain ⟨hbm, h2⟩ := List.max?_eq_some_iff.mp hb
    have hx1 := h1 x hx
    have hy1 := h1 y hy
    have hx2 := h2 x hx
    have hy2 := h2 y hy
    have hab : b - a ≤ atol + rtol * M := by
      simp only [Bool.or_eq_true, decide_eq_true_eq] at h
      rcases h with h | h
      · rw [h]; simpa using hpos
      · have := mul_le_mul_of_nonneg_left (hM b hbm) ht
        rw [abs_le] at h; linarith
    rw [abs_le]
    constructor <;> linarith
  · rename_i hh
    exfalso
    cases ha : l.min? with
    | none => rw [List.min?_eq_none_iff] at ha; subst ha; cases hx
    | some a =>
      cases hb : l.max? with
      | none => rw [List.max?_eq_none_iff] at hb; subst hb; cases hx
      | some b => exact hh a b ha hb

/-- An axis that comes back from its first value and its step. -/
def Near (e : K) (l m : List K) : Prop := m.length = l.length ∧ ∀ (i : Nat) (x y : K), l[i]? = some x → m[i]? = some y → |y - x| ≤ i * e

theorem near_of_step {l : List K} {x0 d e : K} (h0 : l[0]? = some x0) (h : ∀ x ∈ diffs l, |x - d| ≤ e) : Near e l (line l.length (x0, d)) := by
  refine ⟨by simp [line], fun i x y hx hy => ?_⟩
  have hi := (List.getElem?_eq_some_iff.mp hx).1
  simp only [line, List.getElem?_map, List.getElem?_range hi, Option.map_some, Option.some.injEq] at hy
  have := near_line h h0 hx
  rw [← hy, mul_comm, add_comm]
  exact this

theorem freqOf_near {T : BTol K} (ht : 0 ≤ T.ftol) {l : List K} {a : K × K} (h : freqOf T l = .ok a) : Near T.ftol l (line l.length a) := by
  match l, h with
  | [x], h =>
    simp only [freqOf, Except.ok.injEq] at h
    subst h
    exact near_of_step (by simp) (by simp [diffs])
  | x :: y :: t, h =>
    simp only [freqOf] at h
    split at h
    · rename_i hc
      injection h with h
      subst h
      refine near_of_step (by simp) fun z hz => isConst_spec ht hc z hz (y - x) ?_
      exact mem_diffs (i := 0) (by simp) (by simp)
    · cases h

theorem axisOf_near {T : BTol K} (hd : T.deg ≠ 0) (ht : 0 ≤ T.rtol) (ha : 0 ≤ T.atol) {er : BErr} {l : List K} {M : K} (hM0 : 0 ≤ M) (hM : ∀ x ∈ diffs l, |x| ≤ M) {a : K × K}
    (h : axisOf T er l = .ok a) : Near (T.atol + T.rtol * M) l ((line l.length a).map (· / T.deg)) := by
  have hmap : ∀ (n : Nat) (x d : K), (line n (x * T.deg, d * T.deg)).map (· / T.deg) = line n (x, d) := by
    intro n x d
    simp only [line, List.map_map]
    refine List.map_congr_left fun i _ => ?_
    simp only [Function.comp]
    rw [div_eq_iff hd]
    ring
  have hpos : 0 ≤ T.atol + T.rtol * M := add_nonneg ha (mul_nonneg ht hM0)
  match l, h, hM with
  | [x], h, _ =>
    simp only [axisOf, Except.ok.injEq] at h
    subst h
    rw [hmap]
    exact near_of_step (by simp) (by simp [diffs])
  | x :: y :: t, h, hM =>
    simp only [axisOf] at h
    split at h
    · rename_i hc
      injection h with h
      subst h
      rw [hmap]
      have hm : y - x ∈ diffs (x :: y :: t) := mem_diffs (i := 0) (by simp) (by simp)
      refine near_of_step (by simp) fun z hz => ?_
      rw [Bool.or_eq_true] at hc
      rcases hc with hc | hc
      · simp only [decide_eq_true_eq] at hc
        match t, hc, hz with
        | [], _, hz =>
          simp only [diffs, List.tail_cons, List.zip_cons_cons, List.zip_nil_right, List.map_cons, List.map_nil, List.mem_singleton] at hz
          rw [hz, sub_self, abs_zero]
          exact hpos
        | w :: t, hc, _ => simp at hc
      · exact isConstR_spec ht ha hM hc z hz _ hm
    · cases h

omit [Field K] [LinearOrder K] [IsStrictOrderedRing K] in
theorem polOf_line {b : Beam K} (he : b.efield = false) {a : Int × Int} (h : polOf b = .ok a) :
    ((List.range b.pols.length).map fun (i : Nat) => a.2 * i + a.1) = b.pols := by
  unfold polOf at h
  rw [he] at h
  match hp : b.pols, h with
  | [p], h =>
    simp only [Bool.false_eq_true, if_false, Except.ok.injEq] at h
    subst h
    simp
  | p :: q :: t, h =>
    simp only [Bool.false_eq_true, if_false] at h
    split at h
    · rename_i hc
      injection h with h
      subst h
      refine List.ext_getElem? fun i => ?_
      rw [List.getElem?_map]
      by_cases hi : i < (p :: q :: t).length
      · rw [List.getElem?_range hi]
        have hx : (p :: q :: t)[i]? = some (p :: q :: t)[i] := List.getElem?_eq_getElem hi
        have he := evenly_line hc hx
        rw [if_pos (by simp)] at he
        rw [hx, he]
        simp
      · rw [List.getElem?_eq_none (by simpa using hi), List.getElem?_eq_none (by omega)]
        rfl
    · cases h

/-- C117. A beam that is an efield beam, or has complex values, or has one polarization, comes back from a file: all values, polarizations, feeds, pixels
and columns, and frequencies and coordinates up to the tolerances times their number. -/
theorem beam_kept_partial {T : BTol K} (hd : T.deg ≠ 0) (hf : 0 ≤ T.ftol) (ht : 0 ≤ T.rtol) (ha : 0 ≤ T.atol) {b : Beam K} {f : BFile K}
    (h : write T b = .ok f) (hc : b.efield = true ∨ b.cplx = true ∨ b.pols.length = 1) {M : K}
    (hM0 : 0 ≤ M) (hM1 : ∀ x ∈ diffs b.axis1, |x| ≤ M) (hM2 : ∀ x ∈ diffs b.axis2, |x| ≤ M) :
    ∃ b', read T none none none f = .ok b' ∧ b'.healpix = b.healpix ∧ b'.efield = b.efield ∧ b'.cplx = (b.efield || b.cplx) ∧
      b'.nvec = b.nvec ∧ Near T.ftol b.freqs b'.freqs ∧ (b.efield = false → b'.pols = b.pols) ∧ (b.efield = true → b'.feeds = b.feeds) ∧
      (b.healpix = true → b'.pixels = b.pixels) ∧ b'.cols = b.cols ∧
      (b.healpix = false → Near (T.atol + T.rtol * M) b.axis1 b'.axis1 ∧ Near (T.atol + T.rtol * M) b.axis2 b'.axis2) ∧
      ∀ v p k s, (b.efield = true ∨ p < b.pols.length) → (b.healpix = false → s.length = 2) →
        (b'.data v p k s).1 = (b.data v p k s).1 ∧ ((b.efield || b.cplx) = true → b'.data v p k s = b.data v p k s) := by
  obtain ⟨h1, h2, h3, h4, h5, h6, h7, h8, h9, h10⟩ := write_facts h
  cases hcc : (b.efield || b.cplx) with
  | true =>
    have hs : f.shape = [2, b.nvec, 1, b.np, b.freqs.length] ++ b.space := by rw [h9]; simp [arrayOf, hcc]
    cases hh : b.healpix with
    | true =>
      refine ⟨_, by simp [read, h4, hh, hs, h6, Beam.space, naxis, rangeOf, axFreq]; rfl, by simp, by simp [h5], by simp, by simp, by
        simpa [sliceL] using freqOf_near hf h1, ?_, by simp +contextual [h5, h7], by simp, by simp [h8, sliceL], by simp, ?_⟩
      · intro he
        simp only [h5, he, Bool.false_eq_true, if_false]
        have := polOf_line he h3
        simpa [Beam.np, he] using this
      · intro v p k s _ _
        simp [h10, arrayOf, hcc, start]
    | false =>
      obtain ⟨h21, h22⟩ := h2 hh
      refine ⟨_, by simp [read, h4, hh, hs, Beam.space, naxis, rangeOf, axFreq]; rfl, by simp, by simp [h5], by simp, by simp, by
        simpa [sliceL] using freqOf_near hf h1, ?_, by simp +contextual [h5, h7], by simp, by simp [h8, sliceL], ?_, ?_⟩
      · intro he
        simp only [h5, he, Bool.false_eq_true, if_false]
        have := polOf_line he h3
        simpa [Beam.np, he] using this
      · intro _
        exact ⟨by simpa [sliceL] using axisOf_near hd ht ha hM0 hM1 h21, by simpa [sliceL] using axisOf_near hd ht ha hM0 hM2 h22⟩
      · intro v p k s _ hs2
        match s, hs2 rfl with
        | [y, x], _ => simp [h10, arrayOf, hcc, start]
  | false =>
    have he : b.efield = false := by revert hcc; cases b.efield <;> simp
    have hcf : b.cplx = false := by revert hcc; cases b.cplx <;> simp
    have hp1 : b.pols.length = 1 := by simpa [he, hcf] using hc
    have hs : f.shape = [b.nvec, 1, 1, b.freqs.length] ++ b.space := by rw [h9]; simp [arrayOf, he, hcf, Beam.np, hp1]
    cases hh : b.healpix with
    | true =>
      refine ⟨_, by simp [read, h4, hh, hs, h6, h5, he, Beam.space, naxis, rangeOf, axFreq]; rfl, by simp, by simp [he], by simp, by simp, by
        simpa [sliceL] using freqOf_near hf h1, ?_, by simp [he], by simp, by simp [h8, sliceL], by simp, ?_⟩
      · intro _
        have := polOf_line he h3
        rw [hp1] at this
        rw [← this]
        simp
      · intro v p k s hp _
        have : p = 0 := by
          rcases hp with hp | hp
          · rw [he] at hp; cases hp
          · omega
        subst this
        simp [h10, arrayOf, he, hcf, start]
    | false =>
      obtain ⟨h21, h22⟩ := h2 hh
      refine ⟨_, by simp [read, h4, hh, hs, h5, he, Beam.space, naxis, rangeOf, axFreq]; rfl, by simp, by simp [he], by simp, by simp, by
        simpa [sliceL] using freqOf_near hf h1, ?_, by simp [he], by simp, by simp [h8, sliceL], ?_, ?_⟩
      · intro _
        have := polOf_line he h3
        rw [hp1] at this
        rw [← this]
        simp
      · intro _
        exact ⟨by simpa [sliceL] using axisOf_near hd ht ha hM0 hM1 h21, by simpa [sliceL] using axisOf_near hd ht ha hM0 hM2 h22⟩
      · intro v p k s hp hs2
        have : p = 0 := by
          rcases hp with hp | hp
          · rw [he] at hp; cases hp
          · omega
        subst this
        match s, hs2 rfl with
        | [y, x], _ => simp [h10, arrayOf, he, hcf, start]

end order

end Verif.BeamFits
