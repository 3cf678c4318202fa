import Verif.CalSort.Moved
import Mathlib.Analysis.SpecialFunctions.Complex.Circle
import Mathlib.Analysis.Real.Pi.Bounds

/-!
Model of `UVCal.convert_to_gain`, `src/pyuvdata/uvcal/uvcal.py` lines 2467–2582, and C85.

`np.dot` of an array of shape (antennas, times, Jones, 1) with one of shape (1, channels) followed by the transposition to (antennas, channels,
times, Jones) is written as the nested list of products. Numbers are real; rounding is not modelled. Left out: the history, the final `check`,
the check that arguments are arrays of one dimension, and the bookkeeping of which attributes are required.
-/
namespace Verif.CalSort
open Verif.Pol (Str)
open Complex

noncomputable section

/-- The attributes of a calibration object that `convert_to_gain` reads or sets. -/
structure Dly where
  isGain : Bool
  wide : Bool
  spws : List Int
  freqRange : Option (List (ℝ × ℝ))
  delay : Option (Arr4 ℝ)
  gain : Option (Arr4 ℂ)
  flags : Arr4 Bool
  quality : Option (Arr4 ℝ)
  total : Option (Arr3 ℝ)
  freqs : Option (List ℝ)
  widths : Option (List ℝ)
  ids : Option (List Int)

inductive GErr where
  | already | windows | convention | widths | outside | attr
deriving DecidableEq

/-- `np.repeat(a, n, axis=0)`. -/
def repeat0 {α : Type} (n : Nat) (a : List α) : List α := a.flatMap (List.replicate n)

/-- Lines 2510–2515. -/
def convSign (s : Str) : Option ℝ := if s = "minus".toList then some (-1) else if s = "plus".toList then some 1 else none

/-- Lines 2542–2553: `exp(1j * conv * 2 * pi * delay[:, 0] * freq)`, one antenna. -/
def gainsOf (conv : ℝ) (freqs : List ℝ) (d : Arr3 ℝ) : Arr3 ℂ :=
  freqs.map (fun f => ((d[0]?).getD []).map (fun row => row.map (fun tau => Complex.exp (Complex.I * ((conv * 2 * Real.pi * (tau * f) : ℝ) : ℂ)))))

open Classical in
/-- Lines 2528–2534: some frequency is outside of the range of the window. -/
def outside (r : Option (List (ℝ × ℝ))) (freqs : List ℝ) : Bool :=
  match r with
  | none => false
  | some l => match l[0]? with
    | none => false
    | some q => freqs.any (fun f => decide (f < q.1)) || freqs.any (fun f => decide (f > q.2))

/-- `convert_to_gain`. -/
def convertToGain (c : Dly) (freqs widths : List ℝ) (conv : Str) : Except GErr Dly :=
  if c.isGain then .error .already                                                       -- 2502–2503
  else if 1 < c.spws.length then .error .windows                                         -- 2505–2508
  else match convSign conv with
  | none => .error .convention                                                           -- 2510–2515
  | some s =>
    if widths.length ≠ freqs.length then .error .widths                                  -- 2520–2526
    else if outside c.freqRange freqs then .error .outside                               -- 2528–2534
    else match c.delay with
    | none => .error .attr
    | some d => .ok {
        isGain := true                                                                   -- 2555
        wide := false                                                                    -- 2556
        spws := c.spws
        freqRange := none                                                                -- 2558
        delay := none                                                                    -- 2560
        gain := some (d.map (gainsOf s freqs))                                           -- 2540–2559
        flags := c.flags.map (repeat0 freqs.length)                                      -- 2564–2565
        quality := c.quality.map (fun q => q.map (repeat0 freqs.length))                 -- 2561–2563
        total := c.total.map (repeat0 freqs.length)                                      -- 2567–2572
        freqs := some freqs                                                              -- 2573
        widths := some widths                                                            -- 2557
        ids := some (List.replicate freqs.length ((c.spws[0]?).getD 0)) }                -- 2576

/-! ### Specification -/

/-- A wide-band delay object with one window. -/
structure GoodDelay (c : Dly) (na nt nj : Nat) : Prop where
  shape : ∀ d, c.delay = some d → Shape4 d na 1 nt nj
  flags : Shape4 c.flags na 1 nt nj
  quality : ∀ q, c.quality = some q → Shape4 q na 1 nt nj
  total : ∀ q, c.total = some q → Shape3 q 1 nt nj

/-- The gain at frequency `f` that undoes (`-1`) or does (`1`) a delay. -/
def phaseOf (sign tau f : ℝ) : ℂ := Complex.exp (sign * (2 * Real.pi * tau * f) * Complex.I)

theorem repeat0_single {α : Type} (n : Nat) {a : List α} (h : a.length = 1) : ∃ x, a = [x] ∧ repeat0 n a = List.replicate n x := by
  match a, h with
  | [x], _ => exact ⟨x, rfl, by simp [repeat0]⟩

theorem get3_repeat {α : Type} {a : Arr3 α} (h : a.length = 1) {n k : Nat} (hk : k < n) (t j : Nat) : get3 (repeat0 n a) k t j = get3 a 0 t j := by
  obtain ⟨x, rfl, e⟩ := repeat0_single n h
  rw [e]
  unfold get3
  rw [List.getElem?_replicate, if_pos hk]
  rfl

theorem get4_repeat {α : Type} {a : Arr4 α} {na nt nj : Nat} (h : Shape4 a na 1 nt nj) {n k : Nat} (hk : k < n) (i t j : Nat) :
    get4 (a.map (repeat0 n)) i k t j = get4 a i 0 t j :=
  get4_map _ k t j 0 t j (fun x hx => get3_repeat (h.2 x hx).1 hk t j) i

theorem get3_gainsOf (s : ℝ) (freqs : List ℝ) (d : Arr3 ℝ) (k t j : Nat) :
    get3 (gainsOf s freqs d) k t j = (freqs[k]?).bind (fun f => (get3 d 0 t j).map (fun tau => phaseOf s tau f)) := by
  unfold get3 gainsOf
  rw [List.getElem?_map]
  cases freqs[k]? with
  | none => rfl
  | some f =>
    simp only [Option.map_some, Option.bind_some, List.getElem?_map]
    cases d[0]? with
    | none => rfl
    | some x =>
      simp only [Option.getD_some, Option.bind_some]
      cases x[t]? with
      | none => rfl
      | some y =>
        simp only [Option.map_some, Option.bind_some, List.getElem?_map]
        cases y[j]? with
        | none => rfl
        | some tau =>
          simp only [Option.map_some, Option.some.injEq]
          unfold phaseOf
          congr 1
          push_cast
          ring

/-- C85, values: every antenna, channel, time and Jones component has the gain `exp(∓ 2πi · delay · frequency)`, its flag and quality are those
of the delay, and the channels are the given ones, all in the one window. -/
theorem convert_to_gain_values {c c' : Dly} {freqs widths : List ℝ} {conv : Str} {na nt nj : Nat} (g : GoodDelay c na nt nj)
    (h : convertToGain c freqs widths conv = .ok c') :
    ∃ d gn sign, c.delay = some d ∧ c'.gain = some gn ∧ (conv = "minus".toList ∧ sign = -1 ∨ conv = "plus".toList ∧ sign = 1) ∧
      (∀ i k t j : Nat, get4 gn i k t j = (freqs[k]?).bind (fun f => (get4 d i 0 t j).map (fun tau => phaseOf sign tau f))) ∧
      (∀ i k t j : Nat, k < freqs.length → get4 c'.flags i k t j = get4 c.flags i 0 t j) ∧
      (∀ i k t j : Nat, k < freqs.length → c'.quality.bind (fun q => get4 q i k t j) = c.quality.bind (fun q => get4 q i 0 t j)) ∧
      (∀ k t j : Nat, k < freqs.length → c'.total.bind (fun q => get3 q k t j) = c.total.bind (fun q => get3 q 0 t j)) ∧
      c'.delay = none ∧ c'.freqs = some freqs ∧ c'.widths = some widths ∧ c'.freqRange = none ∧ c'.isGain = true ∧ c'.wide = false ∧
      c'.spws = c.spws ∧ (∀ w, c.spws = [w] → c'.ids = some (List.replicate freqs.length w)) := by
  unfold convertToGain at h
  split at h
  · cases h
  split at h
  · cases h
  split at h
  · cases h
  rename_i s hs
  split at h
  · cases h
  split at h
  · cases h
  split at h
  · cases h
  rename_i d hd
  simp only [Except.ok.injEq] at h
  subst h
  refine ⟨d, _, s, hd, rfl, ?_, ?_, ?_, ?_, ?_, rfl, rfl, rfl, rfl, rfl, rfl, rfl, ?_⟩
  · unfold convSign at hs
    split at hs
    · simp only [Option.some.injEq] at hs; exact Or.inl ⟨by assumption, hs.symm⟩
    · split at hs
      · simp only [Option.some.injEq] at hs; exact Or.inr ⟨by assumption, hs.symm⟩
      · simp at hs
  · intro i k t j
    unfold get4
    rw [List.getElem?_map]
    cases d[i]? with
    | none => cases freqs[k]? <;> rfl
    | some x => simp only [Option.map_some, Option.bind_some]; exact get3_gainsOf s freqs x k t j
  · intro i k t j hk
    exact get4_repeat g.flags hk i t j
  · intro i k t j hk
    cases hq : c.quality with
    | none => rfl
    | some q => simp only [Option.map_some, Option.bind_some]; exact get4_repeat (g.quality q hq) hk i t j
  · intro k t j hk
    cases hq : c.total with
    | none => rfl
    | some q => simp only [Option.map_some, Option.bind_some]; exact get3_repeat (g.total q hq).1 hk t j
  · intro w hw
    simp [hw]

/-- C85: which calls are refused; a refused call changes nothing, because nothing is set before the last check. -/
theorem convert_to_gain_refused {c : Dly} {freqs widths : List ℝ} {conv : Str} (hd : c.delay ≠ none) :
    (∃ c', convertToGain c freqs widths conv = .ok c') ↔ c.isGain = false ∧ c.spws.length ≤ 1 ∧
      (conv = "minus".toList ∨ conv = "plus".toList) ∧ widths.length = freqs.length ∧
      (∀ l q, c.freqRange = some l → l[0]? = some q → ∀ f ∈ freqs, q.1 ≤ f ∧ f ≤ q.2) := by
  have ho : outside c.freqRange freqs = false ↔ ∀ l q, c.freqRange = some l → l[0]? = some q → ∀ f ∈ freqs, q.1 ≤ f ∧ f ≤ q.2 := by
    unfold outside
    cases hr : c.freqRange with
    | none => simp
    | some l =>
      cases hl : l[0]? with
      | none =>
        simp only [hl, Option.some.injEq, true_iff]
        rintro l' q rfl hq
        rw [hl] at hq
        cases hq
      | some q =>
        simp only [hl, Bool.or_eq_false_iff, List.any_eq_false, decide_eq_true_eq, not_lt, Option.some.injEq]
        constructor
        · rintro ⟨h1, h2⟩ l' q' rfl hq f hf
          rw [hl] at hq
          simp only [Option.some.injEq] at hq
          subst hq
          exact ⟨h1 f hf, not_lt.1 (by simpa using h2 f hf)⟩
        · intro h
          exact ⟨fun f hf => (h l q rfl hl f hf).1, fun f hf => by simpa using (h l q rfl hl f hf).2⟩
  have hc : convSign conv = none ↔ ¬ (conv = "minus".toList ∨ conv = "plus".toList) := by
    unfold convSign
    split
    · rename_i h; exact ⟨(fun e => by cases e), fun e => absurd (Or.inl h) e⟩
    · rename_i h
      split
      · rename_i h'; exact ⟨(fun e => by cases e), fun e => absurd (Or.inr h') e⟩
      · rename_i h'; exact ⟨fun _ e => e.elim h h', fun _ => rfl⟩
  rw [← ho]
  unfold convertToGain
  by_cases h1 : c.isGain = true
  · simp [h1]
  · have h1' : c.isGain = false := by simpa using h1
    rw [if_neg h1]
    by_cases h2 : 1 < c.spws.length
    · rw [if_pos h2]
      simp [h1', not_le.2 h2]
    · rw [if_neg h2]
      cases hs : convSign conv with
      | none => exact ⟨fun ⟨_, e⟩ => by simp at e, fun e => absurd e.2.2.1 (hc.1 hs)⟩
      | some s =>
        have hcv : conv = "minus".toList ∨ conv = "plus".toList := by
          by_contra hn
          rw [hc.2 hn] at hs
          cases hs
        simp only
        by_cases h3 : widths.length = freqs.length
        · rw [if_neg (by simp [h3])]
          cases h4 : outside c.freqRange freqs with
          | true => simp
          | false =>
            cases hdl : c.delay with
            | none => exact absurd hdl hd
            | some d => exact ⟨fun _ => ⟨h1', not_lt.1 h2, hcv, h3, rfl⟩, fun _ => ⟨_, if_neg (by simp)⟩⟩
        · rw [if_pos h3]
          simp [h3]

/-- C85: gains have magnitude one, the two conventions give complex conjugates that undo each other, and the phase changes with frequency by the
delay. -/
theorem phaseOf_facts (sign tau f f' : ℝ) :
    ‖phaseOf sign tau f‖ = 1 ∧ phaseOf (-sign) tau f = starRingEnd ℂ (phaseOf sign tau f) ∧ phaseOf sign tau f * phaseOf (-sign) tau f = 1 ∧
      phaseOf sign tau f' = phaseOf sign tau f * phaseOf sign tau (f' - f) := by
  refine ⟨?_, ?_, ?_, ?_⟩
  · unfold phaseOf
    have e : (sign : ℂ) * (2 * Real.pi * tau * f) * Complex.I = ((sign * (2 * Real.pi * tau * f) : ℝ) : ℂ) * Complex.I := by push_cast; ring
    rw [e]
    exact Complex.norm_exp_ofReal_mul_I _
  · unfold phaseOf
    rw [← Complex.exp_conj]
    congr 1
    have e : (sign : ℂ) * (2 * Real.pi * tau * f) * Complex.I = ((sign * (2 * Real.pi * tau * f) : ℝ) : ℂ) * Complex.I := by push_cast; ring
    rw [e, map_mul, Complex.conj_ofReal, Complex.conj_I]
    push_cast
    ring
  · unfold phaseOf
    rw [← Complex.exp_add]
    have : (sign : ℂ) * (2 * Real.pi * tau * f) * Complex.I + ((-sign : ℝ) : ℂ) * (2 * Real.pi * tau * f) * Complex.I = 0 := by push_cast; ring
    rw [this, Complex.exp_zero]
  · unfold phaseOf
    rw [← Complex.exp_add]
    congr 1
    push_cast
    ring

/-- A quarter of a turn: the sign of the phase. -/
theorem phaseOf_quarter (tau f : ℝ) (h : tau * f = 1 / 4) : phaseOf 1 tau f = Complex.I ∧ phaseOf (-1) tau f = -Complex.I := by
  have e1 : phaseOf 1 tau f = Complex.I := by
    unfold phaseOf
    have : ((1 : ℝ) : ℂ) * (2 * Real.pi * tau * f) * Complex.I = Real.pi / 2 * Complex.I := by
      have h' : (tau : ℂ) * f = 1 / 4 := by rw [← Complex.ofReal_mul, h]; push_cast; ring
      push_cast
      linear_combination (2 * Real.pi * Complex.I) * h'
    rw [this, Complex.exp_pi_div_two_mul_I]
  refine ⟨e1, ?_⟩
  rw [(phaseOf_facts 1 tau f f).2.1, e1, Complex.conj_I]

/-- One antenna, one time, one Jones component. -/
def dlySample : Dly where
  isGain := false
  wide := true
  spws := [3]
  freqRange := some [(1, 10)]
  delay := some [[[[1 / 4]]]]
  gain := none
  flags := [[[[true]]]]
  quality := some [[[[7]]]]
  total := none
  freqs := none
  widths := none
  ids := none

theorem dlySample_good : GoodDelay dlySample 1 1 1 where
  shape := fun d h => by cases h; exact ⟨rfl, by simp [Shape3]⟩
  flags := ⟨rfl, by simp [dlySample, Shape3]⟩
  quality := fun d h => by cases h; exact ⟨rfl, by simp [Shape3]⟩
  total := fun d h => by cases h

theorem dlySample_ok : ∃ c', convertToGain dlySample [1, 5] [1, 1] "minus".toList = .ok c' := by
  rw [convert_to_gain_refused (by simp [dlySample])]
  refine ⟨rfl, by simp [dlySample], Or.inl rfl, rfl, ?_⟩
  intro l q hl hq
  cases hl
  simp at hq
  subst hq
  norm_num

example : ∃ c' gn, convertToGain dlySample [1, 5] [1, 1] "minus".toList = .ok c' ∧ c'.gain = some gn ∧ get4 gn 0 0 0 0 = some (-Complex.I) ∧
    get4 c'.flags 0 1 0 0 = some true := by
  obtain ⟨c', h⟩ := dlySample_ok
  obtain ⟨d, gn, s, h1, h2, h3, h4, h5, -⟩ := convert_to_gain_values dlySample_good h
  refine ⟨c', gn, h, h2, ?_, ?_⟩
  · rw [h4]
    have hs : s = -1 := by
      rcases h3 with ⟨_, e⟩ | ⟨e, _⟩
      · exact e
      · exact absurd e (by decide)
    cases h1
    subst hs
    simp only [get4, get3, List.getElem?_cons_zero, Option.bind_some, Option.map_some]
    rw [(phaseOf_quarter (1 / 4) 1 (by norm_num)).2]
  · rw [h5 0 1 0 0 (by simp)]
    rfl

end

end Verif.CalSort
