import Verif.CalFits.Model
import Verif.Fits.Lemmas
import Mathlib.Tactic.Linarith
import Mathlib.Tactic.FieldSimp

/-!
C113 and C114: what a calfits file keeps of values, flags, quality, labels, frequencies and times, and when it is refused.
-/
namespace Verif.CalFits

open Verif.Fits

variable {K : Type} [Field K] [LinearOrder K]

theorem write_facts {T : Tol K} {o : Cal K} {f : CFile K} (h : write T o = .ok f) :
    o.nspws ≤ 1 ∧ (∃ apart, refFreq T o = .ok (f.freq0, apart) ∧ freqStep T o apart = .ok f.freqStep) ∧
    timeStep T o = .ok (f.timeStep, f.intTime) ∧ timeZero o = .ok f.time0 ∧ jonesStep o = .ok f.jonesStep ∧ o.jones.head? = some f.jones0 ∧
    ¬ (o.delay = true ∧ o.fRange = none) ∧ f.delay = o.delay ∧
    f.nimages = (if o.delay then 1 else 3) + (if o.quality.isSome then 1 else 0) ∧ f.njones = o.jones.length ∧ f.ntimes = o.ntimes ∧
    f.nfreqs = o.nfreqs ∧ f.chWidth = (if o.delay = false ∧ 1 < o.nfreqs then median (o.widths.getD []) else f.freqStep) ∧
    f.fRange = (if o.delay then o.fRange else none) ∧ f.tRange = (o.tRanges.getD []).head? ∧ f.hasQuality = o.quality.isSome ∧
    f.antNames = (o.antNames.map fun n => n.take 8) ∧ f.antNums = o.antNums ∧
    f.antArr = o.antData ++ List.replicate (o.antNums.length - o.antData.length) (-1) ∧ f.images = imagesOf o ∧
    (f.flagImage = fun a c t j => if o.flags a c t j then 1 else 0) ∧ f.total = o.total := by
  unfold write at h
  split at h
  · cases h
  rename_i h1
  split at h
  · cases h
  rename_i f0 apart hr
  split at h
  · cases h
  rename_i df hd
  split at h
  · cases h
  rename_i dt it ht
  split at h
  · cases h
  rename_i t0 hz
  split at h
  · cases h
  rename_i dj hj
  split at h
  · cases h
  rename_i j0 hh
  split at h
  · cases h
  rename_i hn
  injection h with h
  subst h
  exact ⟨by omega, ⟨apart, hr, hd⟩, ht, hz, hj, hh, hn, rfl, rfl, rfl, rfl, rfl, rfl, rfl, rfl, rfl, rfl, rfl, rfl, rfl, rfl, rfl⟩

/-- C113. A file of gains gives back every gain, every flag and every quality, and the total quality. -/
theorem gains_kept {T : Tol K} {o : Cal K} {f : CFile K} (h : write T o = .ok f) (hd : o.delay = false) :
    (read f).delay = false ∧ (read f).gain = o.gain ∧ (read f).flags = o.flags ∧ (read f).quality = o.quality ∧ (read f).total = o.total := by
  obtain ⟨-, -, -, -, -, -, -, h1, h2, -, -, -, -, -, -, h3, -, -, -, h4, -, h5⟩ := write_facts h
  refine ⟨by simp [read, h1, hd], ?_, ?_, ?_, by simp [read, h5]⟩
  · funext a c t j
    simp [read, h1, hd, h4, imagesOf]
  · funext a c t j
    simp only [read, h1, hd, h4, imagesOf]
    cases o.flags a c t j <;> simp
  · simp only [read, h3, h1, hd, h4, h2]
    cases hq : o.quality with
    | none => simp
    | some q => simp only [Option.isSome_some, if_true, Option.some.injEq]; funext a c t j; simp [imagesOf, hd, hq]

/-- C113. A file of delays gives back every delay, every flag and every quality, the total quality and the range of frequencies. -/
theorem delays_kept {T : Tol K} {o : Cal K} {f : CFile K} (h : write T o = .ok f) (hd : o.delay = true) :
    (read f).delay = true ∧ (read f).delays = o.delays ∧ (read f).flags = o.flags ∧ (read f).quality = o.quality ∧ (read f).total = o.total ∧
      (read f).fRange = o.fRange := by
  obtain ⟨-, -, -, -, -, -, -, h1, h2, -, -, -, -, h6, -, h3, -, -, -, h4, h7, h5⟩ := write_facts h
  refine ⟨by simp [read, h1, hd], ?_, ?_, ?_, by simp [read, h5], by simp [read, h6, h1, hd]⟩
  · funext a c t j
    simp [read, h1, hd, h4, imagesOf]
  · funext a c t j
    simp only [read, h1, hd, h7]
    cases o.flags a c t j <;> simp
  · simp only [read, h3, h1, hd, h4, h2]
    cases hq : o.quality with
    | none => simp
    | some q => simp only [Option.isSome_some, if_true, Option.some.injEq]; funext a c t j; simp [imagesOf, hd, hq]

/-- C113. The Jones components and the numbers of antennas are kept, of names the first eight characters, and the antennas with data if their numbers
are not negative and the telescope has no less antennas. -/
theorem labels_kept_partial {T : Tol K} {o : Cal K} {f : CFile K} (h : write T o = .ok f) :
    (read f).jones = o.jones ∧ (read f).antNums = o.antNums ∧ (read f).antNames = (o.antNames.map fun n => n.take 8) ∧
    ((∀ a ∈ o.antData, 0 ≤ a) → (read f).antData = o.antData) ∧ (read f).nspws = 1 ∧ (read f).spw = 0 ∧ (read f).flexJones = none := by
  obtain ⟨-, -, -, -, hj, hh, -, -, -, hn, -, -, -, -, -, -, h1, h2, h3, -, -, -⟩ := write_facts h
  refine ⟨?_, by simp [read, h2], by simp [read, h1], fun ha => ?_, rfl, rfl, rfl⟩
  · simp only [read, hn]
    refine List.ext_getElem? fun i => ?_
    rw [List.getElem?_map]
    by_cases hi : i < o.jones.length
    · rw [List.getElem?_range hi]
      have hx : o.jones[i]? = some o.jones[i] := List.getElem?_eq_getElem hi
      rw [hx]
      simp only [Option.map_some]
      have h0 : o.jones.getD 0 0 = f.jones0 := by
        rw [List.head?_eq_getElem?] at hh
        exact getD_get hh
      unfold jonesStep at hj
      split at hj
      · split at hj
        · rename_i he
          injection hj with hj
          have := evenly_line he hx
          rw [← hj, ← h0]
          rw [if_pos (by assumption)] at this
          rw [this]
        · cases hj
      · have hi0 : i = 0 := by omega
        subst hi0
        rw [← h0, getD_get hx]
        simp
    · rw [List.getElem?_eq_none (by simpa using hi), List.getElem?_eq_none (by omega)]
      rfl
  · have hf : (o.antData ++ List.replicate (o.antNums.length - o.antData.length) (-1 : Int)).filter (fun a => decide (0 ≤ a)) = o.antData := by
      rw [List.filter_append, List.filter_eq_self.mpr (by simpa using ha)]
      simp
    show readAnts f.antArr = o.antData
    rw [h3, readAnts]
    split
    · exact hf
    · rename_i hany
      refine Eq.trans (Eq.symm (List.filter_eq_self.mpr fun a hm => ?_)) hf
      by_contra hc
      refine hany (List.any_eq_true.mpr ⟨a, hm, ?_⟩)
      simpa using hc

section order
variable [IsStrictOrderedRing K]

omit [LinearOrder K] [IsStrictOrderedRing K] in
theorem diffs_head {l : List K} {a b : K} (h0 : l[0]? = some a) (h1 : l[1]? = some b) : (diffs l).headD 0 = b - a := by
  match l, h0, h1 with
  | x :: y :: l, h0, h1 => simp at h0 h1; simp [diffs, h0, h1]

omit [LinearOrder K] [IsStrictOrderedRing K] in
theorem diffs_head_mem {l : List K} (h : 1 < l.length) : (diffs l).headD 0 ∈ diffs l := by
  match l, h with
  | x :: y :: l, _ => simp [diffs]

omit [LinearOrder K] [IsStrictOrderedRing K] in
theorem diffs_short {l : List K} (h : l.length ≤ 2) : ∀ x ∈ diffs l, x = (diffs l).headD 0 := by
  match l, h with
  | [], _ => simp [diffs]
  | [a], _ => simp [diffs]
  | [a, b], _ => simp [diffs]

omit [IsStrictOrderedRing K] in
/-- The checks of frequencies, if there is more than one. -/
theorem refFreq_facts {T : Tol K} {o : Cal K} {fs ws : List K} (hf : o.freqs = some fs) (hw : o.widths = some ws) {f0 : K} {apart : Bool}
    (h : refFreq T o = .ok (f0, apart)) :
    fs[0]? = some f0 ∧ (1 < fs.length → isConst T.wtol ws = true ∧ isConst T.ftol (diffs fs) = true ∧
      apart = (diffs fs).any fun x => !(decide (|x - mean ws * (if (diffs fs).all (fun x => decide (x < 0)) then -1 else 1)| ≤ T.wtol))) := by
  unfold refFreq at h
  rw [hf, hw] at h
  cases hh : fs.head? with
  | none => simp [hh] at h
  | some x =>
    simp only [hh] at h
    by_cases he : (if fs.length = 1 then (false, false) else winErr T.ftol T.wtol fs ws).1 = true
    · rw [if_pos he] at h; cases h
    · rw [if_neg he] at h
      simp only [Except.ok.injEq, Prod.mk.injEq] at h
      obtain ⟨rfl, ha⟩ := h
      refine ⟨by rw [← List.head?_eq_getElem?]; exact hh, fun h1 => ?_⟩
      rw [if_neg (by omega)] at he ha
      unfold winErr at he ha
      rw [if_pos h1] at he ha
      simp only at he ha
      split at he
      · simp at he
      · rename_i hc
        rw [if_neg hc] at ha
        simp only [Bool.not_eq_true, Bool.not_eq_false'] at hc he
        exact ⟨hc, he, ha.symm⟩

omit [IsStrictOrderedRing K] in
theorem freqs_read {T : Tol K} {o : Cal K} {f : CFile K} (h : write T o = .ok f) (hd : o.delay = false) {fs : List K} (hf : o.freqs = some fs) :
    (read f).freqs = some ((List.range fs.length).map fun (c : Nat) => f.freqStep * c + f.freq0) := by
  obtain ⟨-, -, -, -, -, -, -, h1, -, -, -, h2, -⟩ := write_facts h
  simp [read, h1, hd, h2, Cal.nfreqs, hf]

/-- C114. Frequencies that are not all falling are kept: each comes back within its number times the tolerances of the checks and the rounding. -/
theorem freqs_kept_partial {T : Tol K} {u : K} (hft : 0 ≤ T.ftol) (hwt : 0 ≤ T.wtol) (hrd : ∀ x, |T.rdF x - x| ≤ u) {o : Cal K} {f : CFile K}
    (h : write T o = .ok f) (hd : o.delay = false) {fs ws : List K} (hf : o.freqs = some fs) (hw : o.widths = some ws) (hl : ws.length = fs.length)
    (hup : 1 < fs.length → ∃ x ∈ diffs fs, 0 ≤ x) :
    ∃ gs, (read f).freqs = some gs ∧ gs.length = fs.length ∧
      ∀ (c : Nat) (x y : K), fs[c]? = some x → gs[c]? = some y → |y - x| ≤ c * (T.ftol + u + 2 * T.wtol) := by
  have hu : 0 ≤ u := (abs_nonneg _).trans (hrd 0)
  refine ⟨_, freqs_read h hd hf, by simp, fun c x y hx hy => ?_⟩
  have hc := (List.getElem?_eq_some_iff.mp hx).1
  rw [List.getElem?_map, List.getElem?_range hc] at hy
  simp only [Option.map_some, Option.some.injEq] at hy
  subst hy
  obtain ⟨-, ⟨apart, hr, hs⟩, -⟩ := write_facts h
  obtain ⟨h0, hmore⟩ := refFreq_facts hf hw hr
  by_cases h1 : 1 < fs.length
  · obtain ⟨hcw, hcf, ha⟩ := hmore h1
    have hnall : (diffs fs).all (fun x => decide (x < 0)) = false := by
      obtain ⟨x, hx, hx0⟩ := hup h1
      rw [Bool.eq_false_iff]
      intro hall
      have := List.all_eq_true.mp hall x hx
      simp only [decide_eq_true_eq] at this
      exact absurd hx0 (not_le.mpr this)
    rw [hnall] at ha
    unfold freqStep at hs
    rw [if_pos ⟨hd, by simpa [Cal.nfreqs, hd, hf] using h1⟩] at hs
    have hstep : ∀ z ∈ diffs fs, |z - f.freqStep| ≤ T.ftol + u + 2 * T.wtol := by
      intro z hz
      cases hap : apart with
      | true =>
        rw [hap] at hs
        simp only [if_true, hf, Option.getD_some, Except.ok.injEq] at hs
        have e1 := isConst_spec hft hcf z hz _ (diffs_head_mem h1)
        have e2 := hrd ((diffs fs).headD 0)
        rw [← hs]
        rw [abs_le] at e1 e2 ⊢
        constructor <;> linarith
      | false =>
        rw [hap] at hs ha
        simp only [hw, Option.getD_some, Except.ok.injEq, Bool.false_eq_true, if_false] at hs
        have hne : ws ≠ [] := by intro e; rw [e] at hl; simp at hl; omega
        have e1 := mean_median hwt hcw hne
        have e2 : |z - mean ws| ≤ T.wtol := by
          have := (List.any_eq_false.mp ha.symm) z hz
          simpa using this
        rw [← hs]
        rw [abs_le] at e1 e2 ⊢
        constructor <;> linarith
    have := near_line hstep h0 hx
    rw [mul_comm, add_comm]
    exact this
  · have : c = 0 := by omega
    subst this
    rw [h0] at hx
    cases hx
    simp

/-- C114. Falling frequencies that are apart by the widths come back mirrored at the first: each as far above as it was below. -/
theorem freqs_mirrored {T : Tol K} (hwt : 0 ≤ T.wtol) {o : Cal K} {f : CFile K}
    (h : write T o = .ok f) (hd : o.delay = false) {fs ws : List K} (hf : o.freqs = some fs) (hw : o.widths = some ws) (hl : ws.length = fs.length)
    (h1 : 1 < fs.length) (hdown : ∀ x ∈ diffs fs, x < 0 ∧ |x + mean ws| ≤ T.wtol) {f0 : K} (h0 : fs[0]? = some f0) :
    ∃ gs, (read f).freqs = some gs ∧ gs.length = fs.length ∧
      ∀ (c : Nat) (x y : K), fs[c]? = some x → gs[c]? = some y → |y - (f0 + (f0 - x))| ≤ c * (2 * T.wtol) := by
  refine ⟨_, freqs_read h hd hf, by simp, fun c x y hx hy => ?_⟩
  have hc := (List.getElem?_eq_some_iff.mp hx).1
  rw [List.getElem?_map, List.getElem?_range hc] at hy
  simp only [Option.map_some, Option.some.injEq] at hy
  subst hy
  obtain ⟨-, ⟨apart, hr, hs⟩, -⟩ := write_facts h
  obtain ⟨h0', hmore⟩ := refFreq_facts hf hw hr
  rw [h0] at h0'
  injection h0' with h0'
  obtain ⟨hcw, hcf, ha⟩ := hmore h1
  have hall : (diffs fs).all (fun x => decide (x < 0)) = true := List.all_eq_true.mpr fun x hx => by simpa using (hdown x hx).1
  rw [hall] at ha
  have hap : apart = false := by
    rw [ha, List.any_eq_false]
    intro x hx
    have := (hdown x hx).2
    simpa using this
  unfold freqStep at hs
  rw [if_pos ⟨hd, by simpa [Cal.nfreqs, hd, hf] using h1⟩, hap] at hs
  simp only [hw, Option.getD_some, Except.ok.injEq, Bool.false_eq_true, if_false] at hs
  have hne : ws ≠ [] := by intro e; rw [e] at hl; simp at hl; omega
  have e1 := mean_median hwt hcw hne
  have hstep : ∀ z ∈ diffs fs, |z - (- f.freqStep)| ≤ 2 * T.wtol := by
    intro z hz
    have e2 := (hdown z hz).2
    rw [← hs]
    rw [abs_le] at e1 e2 ⊢
    constructor <;> linarith
  have := near_line hstep h0 hx
  rw [← h0']
  rw [abs_le] at this ⊢
  constructor <;> linarith

/-- C114. Times come back within their number times the tolerances, the rounding and the closeness of step and integration time. Integration times come
back as their median. -/
theorem times_kept_partial {T : Tol K} {u : K} (htt : 0 ≤ T.ttol) (hit : 0 ≤ T.itol) (hrd : ∀ x, |T.rdT x - x| ≤ u) (hat : 0 ≤ T.atol) (hrt : 0 ≤ T.rtol)
    {o : Cal K} {f : CFile K} (h : write T o = .ok f) {ts : List K} (ht : o.times = some ts) (hr : o.tRanges = none) (hl : o.intTimes.length = ts.length) :
    ∃ gs m, (read f).times = some gs ∧ gs.length = ts.length ∧ (read f).tRanges = none ∧ (read f).intTimes = List.replicate ts.length m ∧
      (∀ x ∈ o.intTimes, |x - m| ≤ T.itol) ∧
      ∀ (i : Nat) (x y : K), ts[i]? = some x → gs[i]? = some y → |y - x| ≤ i * (T.ttol + u + (T.atol + T.rtol * |m / day|)) := by
  have hu : 0 ≤ u := (abs_nonneg _).trans (hrd 0)
  obtain ⟨-, -, hs, hz, -, -, -, -, -, -, h3, -, -, -, h4, -⟩ := write_facts h
  have hn : o.ntimes = ts.length := by simp [Cal.ntimes, ht]
  have h4' : f.tRange = none := by rw [h4, hr]; rfl
  refine ⟨(List.range ts.length).map fun (i : Nat) => f.timeStep * i + f.time0, f.intTime, by simp [read, h4', h3, hn], by simp,
    by simp [read, h4'], by simp [read, h3, hn], ?_, ?_⟩
  · intro x hx
    unfold timeStep at hs
    split at hs
    · rename_i h1
      rw [hr] at hs
      simp only [Option.isSome_none, Bool.false_eq_true, if_false] at hs
      split at hs
      · cases hs
      split at hs
      · cases hs
      rename_i hc
      simp only [Except.ok.injEq, Prod.mk.injEq] at hs
      rw [← hs.2]
      exact median_near hit (by simpa using hc) hx
    · rename_i h1
      have hsz : o.intTimes.length ≤ 1 := by omega
      match hi : o.intTimes, hsz with
      | [], _ => rw [hi] at hx; cases hx
      | [a], _ =>
        rw [hi] at hs hx
        simp only [List.head?_cons, Except.ok.injEq, Prod.mk.injEq] at hs
        rw [List.mem_singleton] at hx
        rw [hx, hs.2]
        simpa using hit
      | a :: b :: l, hl => simp at hl
  · intro i x y hx hy
    have hc := (List.getElem?_eq_some_iff.mp hx).1
    rw [List.getElem?_map, List.getElem?_range hc] at hy
    simp only [Option.map_some, Option.some.injEq] at hy
    subst hy
    have h0 : ts[0]? = some f.time0 := by
      unfold timeZero at hz
      rw [ht] at hz
      simp only at hz
      split at hz
      · rename_i t hh
        injection hz with hz
        rw [← List.head?_eq_getElem?, hh, hz]
      · cases hz
    by_cases h1 : 1 < ts.length
    · unfold timeStep at hs
      rw [if_pos (by omega), hr, ht] at hs
      simp only [Option.isSome_none, Bool.false_eq_true, if_false, Option.getD_some] at hs
      split at hs
      · cases hs
      rename_i hev
      split at hs
      · cases hs
      simp only [Except.ok.injEq, Prod.mk.injEq] at hs
      obtain ⟨hs1, hs2⟩ := hs
      have hd0 : ∀ z ∈ diffs ts, |z - (diffs ts).headD 0| ≤ T.ttol := by
        intro z hz
        simp only [evenSpaced, Bool.not_or, Bool.not_eq_true', Bool.not_eq_false, Bool.and_eq_true, not_and] at hev
        by_cases h2 : ts.length ≤ 2
        · rw [diffs_short h2 z hz, sub_self, abs_zero]; exact htt
        · exact isConst_spec htt (by simpa using hev (by simpa using h2)) z hz _ (diffs_head_mem h1)
      have hclose : 0 ≤ T.atol + T.rtol * |f.intTime / day| := add_nonneg hat (mul_nonneg hrt (abs_nonneg _))
      have hst : |f.timeStep - (diffs ts).headD 0| ≤ u + (T.atol + T.rtol * |f.intTime / day|) := by
        rw [← hs1]
        split
        · rename_i hcl
          simp only [isClose, decide_eq_true_eq, hs2] at hcl
          rw [hs2, abs_sub_comm]
          linarith
        · have := hrd ((diffs ts).headD 0)
          linarith
      have hstep : ∀ z ∈ diffs ts, |z - f.timeStep| ≤ T.ttol + u + (T.atol + T.rtol * |f.intTime / day|) := by
        intro z hz
        have e1 := hd0 z hz
        have e2 := hst
        rw [abs_le] at e1 e2 ⊢
        constructor <;> linarith
      have := near_line hstep h0 hx
      rw [mul_comm, add_comm]
      exact this
    · have : i = 0 := by omega
      subst this
      rw [h0] at hx
      cases hx
      simp

omit [IsStrictOrderedRing K] in
/-- C114. One range of times is kept. -/
theorem range_kept {T : Tol K} {o : Cal K} {f : CFile K} (h : write T o = .ok f) {r : K × K} (ht : o.times = none) (hr : o.tRanges = some [r]) :
    (read f).times = none ∧ (read f).tRanges = some [r] := by
  obtain ⟨-, -, -, -, -, -, -, -, -, -, h3, -, -, -, h4, -⟩ := write_facts h
  have hn : o.ntimes = 1 := by simp [Cal.ntimes, ht, hr]
  simp [read, h3, hn, h4, hr]

omit [IsStrictOrderedRing K] in
/-- C114. Gains of a window as a whole come back as gains of one channel at the lower end of the window. -/
theorem wide_gains {T : Tol K} {o : Cal K} {f : CFile K} (h : write T o = .ok f) (hd : o.delay = false) (hf : o.freqs = none) (hw : o.widths = none) :
    ∃ r, o.fRange = some r ∧ (read f).freqs = some [r.1] ∧ (read f).widths = some [1] ∧ (read f).fRange = none := by
  obtain ⟨-, ⟨apart, hr, hs⟩, -, -, -, -, -, h1, -, -, -, h2, h3, -⟩ := write_facts h
  have hn : o.nfreqs = 1 := by simp [Cal.nfreqs, hd, hf]
  unfold refFreq at hr
  rw [hf] at hr
  simp only at hr
  split at hr
  · cases hr
  · rename_i r hrr
    simp only [Except.ok.injEq, Prod.mk.injEq] at hr
    simp only [freqStep, hn, hw, lt_irrefl, and_false, if_false, Except.ok.injEq] at hs
    refine ⟨r, hrr, ?_, ?_, by simp [read, h1, hd]⟩
    · simp [read, h1, hd, h2, hn, ← hr.1]
    · simp [read, h1, hd, h2, hn, h3, ← hs]

end order

end Verif.CalFits
