import Verif.CalFits.Props

/-!
C115: which calibration objects a calfits file can be written for.
-/
namespace Verif.CalFits

open Verif.Fits

variable {K : Type} [Field K] [LinearOrder K] [IsStrictOrderedRing K]

theorem isConst_iff {tol : K} (ht : 0 ≤ tol) {l : List K} : isConst tol l = true ↔ ∀ x ∈ l, ∀ y ∈ l, |x - y| ≤ tol := by
  refine ⟨isConst_spec ht, fun h => ?_⟩
  unfold isConst
  split
  · rename_i a b ha hb
    have := h a (List.min?_eq_some_iff.mp ha).1 b (List.max?_eq_some_iff.mp hb).1
    simp [this]
  · rfl

/-- All steps of a list are the same. -/
def SameSteps (l : List Int) : Prop := ∃ d, ∀ (i : Nat) (x y : Int), l[i]? = some x → l[i + 1]? = some y → y = x + d

theorem evenly_iff {l : List Int} : evenly l = true ↔ SameSteps l := by
  have hdiff : ∀ (l : List Int) (z : Int), z ∈ ((l.zip l.tail).map fun p => p.2 - p.1) ↔
      ∃ (i : Nat) (x y : Int), l[i]? = some x ∧ l[i + 1]? = some y ∧ z = y - x := by
    intro l z
    rw [List.mem_map]
    constructor
    · rintro ⟨⟨a, b⟩, hab, rfl⟩
      obtain ⟨i, hi⟩ := List.getElem?_of_mem hab
      rw [List.getElem?_zip_eq_some, List.getElem?_tail] at hi
      exact ⟨i, a, b, hi.1, hi.2, rfl⟩
    · rintro ⟨i, x, y, hx, hy, rfl⟩
      refine ⟨(x, y), List.mem_of_getElem? (i := i) ?_, rfl⟩
      rw [List.getElem?_zip_eq_some, List.getElem?_tail]
      exact ⟨hx, hy⟩
  constructor
  · intro h
    by_cases h1 : 1 < l.length
    · refine ⟨l.getD 1 0 - l.getD 0 0, fun i x y hx hy => ?_⟩
      have e1 := evenly_line h hx
      have e2 := evenly_line h hy
      rw [if_pos h1] at e1 e2
      rw [e1, e2]
      push_cast
      ring
    · exact ⟨0, fun i x y _ hy => absurd (List.getElem?_eq_some_iff.mp hy).1 (by omega)⟩
  · rintro ⟨d, hd⟩
    unfold evenly
    rw [Bool.or_eq_true]
    by_cases h2 : l.length ≤ 2
    · exact Or.inl (by simpa using h2)
    · refine Or.inr (List.all_eq_true.mpr fun z hz => ?_)
      have all : ∀ z ∈ ((l.zip l.tail).map fun p => p.2 - p.1), z = d := by
        intro z hz
        obtain ⟨i, x, y, hx, hy, rfl⟩ := (hdiff l z).mp hz
        have := hd i x y hx hy
        omega
      have hzd := all z hz
      cases hh : ((l.zip l.tail).map fun p => p.2 - p.1) with
      | nil => rw [hh] at hz; cases hz
      | cons w t =>
        rw [hh] at hz all
        have := all w (by simp)
        simp [hzd, this]

/-- What `check` requires of an object before it is written: values that are needed are there. -/
structure Complete (o : Cal K) : Prop where
  jones : o.jones ≠ []
  intTimes : o.intTimes ≠ []
  range : o.delay = true ∨ o.freqs = none → o.fRange ≠ none
  freqs : ∀ fs, o.freqs = some fs → fs ≠ [] ∧ o.widths ≠ none
  widths : o.widths ≠ some []
  times : ∀ ts, o.times = some ts → ts ≠ []
  tRanges : o.times = none → ∃ r rs, o.tRanges = some (r :: rs)

/-- The steps of a list differ by no more than a tolerance. -/
def Even (tol : K) (l : List K) : Prop :=
  ∀ (i j : Nat) (a b c d : K), l[i]? = some a → l[i + 1]? = some b → l[j]? = some c → l[j + 1]? = some d → |(b - a) - (d - c)| ≤ tol

omit [LinearOrder K] [IsStrictOrderedRing K] in
theorem mem_diffs_iff {l : List K} {z : K} : z ∈ diffs l ↔ ∃ (i : Nat) (a b : K), l[i]? = some a ∧ l[i + 1]? = some b ∧ z = b - a := by
  constructor
  · intro h
    obtain ⟨⟨a, b⟩, hab, rfl⟩ := List.mem_map.mp h
    obtain ⟨i, hi⟩ := List.getElem?_of_mem hab
    rw [List.getElem?_zip_eq_some, List.getElem?_tail] at hi
    exact ⟨i, a, b, hi.1, hi.2, rfl⟩
  · rintro ⟨i, a, b, ha, hb, rfl⟩
    exact mem_diffs ha hb

theorem even_iff {tol : K} (ht : 0 ≤ tol) {l : List K} : isConst tol (diffs l) = true ↔ Even tol l := by
  rw [isConst_iff ht]
  constructor
  · intro h i j a b c d ha hb hc hd
    exact h _ (mem_diffs ha hb) _ (mem_diffs hc hd)
  · intro h x hx y hy
    obtain ⟨i, a, b, ha, hb, rfl⟩ := mem_diffs_iff.mp hx
    obtain ⟨j, c, d, hc, hd, rfl⟩ := mem_diffs_iff.mp hy
    exact h i j a b c d ha hb hc hd

theorem even_short {tol : K} (ht : 0 ≤ tol) {l : List K} (h : l.length ≤ 2) : Even tol l := by
  intro i j a b c d ha hb hc hd
  have h1 := (List.getElem?_eq_some_iff.mp hb).1
  have h2 := (List.getElem?_eq_some_iff.mp hd).1
  have hi : i = 0 := by omega
  have hj : j = 0 := by omega
  subst hi hj
  rw [ha] at hc
  rw [hb] at hd
  cases hc
  cases hd
  simpa using ht

theorem evenSpaced_iff {tol : K} (ht : 0 ≤ tol) {l : List K} : evenSpaced tol l = true ↔ Even tol l := by
  unfold evenSpaced
  rw [Bool.or_eq_true, even_iff ht, decide_eq_true_eq]
  constructor
  · rintro (h | h)
    · exact even_short ht h
    · exact h
  · exact Or.inr

theorem refFreq_iff {T : Tol K} (hft : 0 ≤ T.ftol) (hwt : 0 ≤ T.wtol) {o : Cal K} (hc : Complete o) :
    (∃ r, refFreq T o = .ok r) ↔ ∀ fs ws, o.freqs = some fs → o.widths = some ws → 1 < fs.length →
      Even T.ftol fs ∧ ∀ x ∈ ws, ∀ y ∈ ws, |x - y| ≤ T.wtol := by
  cases hf : o.freqs with
  | none =>
    have := hc.range (Or.inr hf)
    cases hr : o.fRange with
    | none => exact absurd hr this
    | some r => simp [refFreq, hf, hr]
  | some fs =>
    obtain ⟨hne, hw⟩ := hc.freqs fs hf
    cases hw' : o.widths with
    | none => exact absurd hw' hw
    | some ws =>
      obtain ⟨f0, hf0⟩ : ∃ f0, fs.head? = some f0 := by
        cases fs with
        | nil => exact absurd rfl hne
        | cons a l => exact ⟨a, rfl⟩
      constructor
      · rintro ⟨⟨r, a⟩, hr⟩ fs' ws' e1 e2 h1
        cases e1
        cases e2
        obtain ⟨-, h⟩ := refFreq_facts hf hw' hr
        obtain ⟨h2, h3, -⟩ := h h1
        exact ⟨(even_iff hft).mp h3, (isConst_iff hwt).mp h2⟩
      · intro h
        unfold refFreq
        simp only [hf, hw', hf0]
        by_cases h1 : fs.length = 1
        · simp [h1]
        · have h1' : 1 < fs.length := by
            have : fs.length ≠ 0 := by simpa using hne
            omega
          obtain ⟨h2, h3⟩ := h fs ws rfl rfl h1'
          have h2 := (even_iff hft).mpr h2
          have h3 := (isConst_iff hwt).mpr h3
          have : (winErr T.ftol T.wtol fs ws).1 = false := by
            unfold winErr
            rw [if_pos h1']
            simp [h2, h3]
          simp [h1, this]

/-- C115. A complete object is written if and only if it has one window, its frequencies are evenly spaced with the same widths, it has one range of
times or one time, or times evenly spaced with the same integration times, and its Jones components are evenly spaced. -/
theorem write_iff {T : Tol K} (hft : 0 ≤ T.ftol) (hwt : 0 ≤ T.wtol) (htt : 0 ≤ T.ttol) (hit : 0 ≤ T.itol) {o : Cal K} (hc : Complete o) :
    (∃ f, write T o = .ok f) ↔ o.nspws ≤ 1 ∧
      (∀ fs ws, o.freqs = some fs → o.widths = some ws → 1 < fs.length → Even T.ftol fs ∧ ∀ x ∈ ws, ∀ y ∈ ws, |x - y| ≤ T.wtol) ∧
      (1 < o.ntimes → o.tRanges = none ∧ (∀ ts, o.times = some ts → Even T.ttol ts) ∧ ∀ x ∈ o.intTimes, ∀ y ∈ o.intTimes, |x - y| ≤ T.itol) ∧
      SameSteps o.jones := by
  have hsame : (∃ d, jonesStep o = .ok d) ↔ SameSteps o.jones := by
    rw [← evenly_iff]
    unfold jonesStep
    by_cases h1 : 1 < o.jones.length
    · rw [if_pos h1]
      by_cases he : evenly o.jones = true <;> simp [he]
    · rw [if_neg h1]
      have : evenly o.jones = true := by simp [evenly]; left; omega
      simp [this]
  have htime : (∃ d, timeStep T o = .ok d) ↔
      (1 < o.ntimes → o.tRanges = none ∧ (∀ ts, o.times = some ts → Even T.ttol ts) ∧ ∀ x ∈ o.intTimes, ∀ y ∈ o.intTimes, |x - y| ≤ T.itol) := by
    unfold timeStep
    by_cases h1 : 1 < o.ntimes
    · rw [if_pos h1]
      cases hr : o.tRanges with
      | some r => simp [h1]
      | none =>
        cases ht : o.times with
        | none =>
          obtain ⟨r, rs, e⟩ := hc.tRanges ht
          rw [hr] at e
          cases e
        | some ts =>
          simp only [Option.isSome_none, Bool.false_eq_true, if_false, Option.getD_some, h1, true_implies, true_and, Option.some.injEq, forall_eq']
          rw [← evenSpaced_iff htt, ← isConst_iff hit]
          by_cases e1 : evenSpaced T.ttol ts = true <;> by_cases e2 : isConst T.itol o.intTimes = true <;> simp [e1, e2]
    · rw [if_neg h1]
      cases hi : o.intTimes with
      | nil => exact absurd hi hc.intTimes
      | cons x l => simp [h1]
  rw [← hsame, ← htime, ← refFreq_iff hft hwt hc]
  constructor
  · rintro ⟨f, h⟩
    obtain ⟨h1, ⟨a, h2, -⟩, h3, -, h4, -⟩ := write_facts h
    exact ⟨h1, ⟨_, h2⟩, ⟨_, h3⟩, ⟨_, h4⟩⟩
  · rintro ⟨h1, ⟨⟨f0, a⟩, h2⟩, ⟨⟨dt, it⟩, h3⟩, ⟨dj, h4⟩⟩
    have h5 : ∃ df, freqStep T o a = .ok df := by
      unfold freqStep
      split
      · split <;> exact ⟨_, rfl⟩
      · cases hw : o.widths with
        | none => exact ⟨_, rfl⟩
        | some w =>
          cases w with
          | nil => exact absurd hw hc.widths
          | cons x l => exact ⟨_, rfl⟩
    have h6 : ∃ t0, timeZero o = .ok t0 := by
      unfold timeZero
      cases ht : o.times with
      | some ts =>
        cases ts with
        | nil => exact absurd rfl (hc.times _ ht)
        | cons x l => exact ⟨_, rfl⟩
      | none =>
        obtain ⟨r, rs, e⟩ := hc.tRanges ht
        rw [e]
        cases rs with
        | nil => exact ⟨_, rfl⟩
        | cons r' rs =>
          exfalso
          have : 1 < o.ntimes := by simp [Cal.ntimes, ht, e]
          have := htime.mp ⟨_, h3⟩ this
          rw [e] at this
          cases this.1
    obtain ⟨df, h5⟩ := h5
    obtain ⟨t0, h6⟩ := h6
    obtain ⟨j0, h7⟩ : ∃ j0, o.jones.head? = some j0 := by
      cases hj : o.jones with
      | nil => exact absurd hj hc.jones
      | cons a l => exact ⟨a, rfl⟩
    have h8 : ¬ (o.delay = true ∧ o.fRange = none) := fun e => hc.range (Or.inl e.1) e.2
    unfold write
    simp only [h2, h3, h4, h5, h6, h7]
    rw [if_neg (by omega), if_neg h8]
    exact ⟨_, rfl⟩

end Verif.CalFits
