import Mathlib.Tactic.FieldSimp
import Verif.MwaBeam.File

/-!
# Reading a beam of the MWA: field, dipoles, frequencies and directions
-/

namespace Verif.MwaBeam

section
variable {K C : Type} [Field K] [LinearOrder K] [IsStrictOrderedRing K] [FloorRing K] [CommRing C] {file : File K} {c : Content K}

/-- Excitation voltage of a dipole: none if it is terminated (delay 32), otherwise its amplitude with the phase of a delay of
435 picoseconds per step. -/
def excitation (E : Env K C) (f : Nat) (delay : Int) (amp : K) : C :=
  if delay = 32 then 0 else E.emb amp * E.cis (-(2 * E.pi * (f : K) * ((delay : K) * (435 / 10 ^ 12))))

/-- Frequencies of a file within a range, both ends included. -/
def within (range : Option (K × K)) (fs : List Nat) : List Nat :=
  match range with
  | none => fs
  | some r => fs.filter fun (f : Nat) => decide (r.1 ≤ (f : K) ∧ (f : K) ≤ r.2)

def asList (range : Option (K × K)) : Option (List K) := range.map fun r => [r.1, r.2]

omit [IsStrictOrderedRing K] [FloorRing K] in
theorem freqsUse_ok {fs : List Nat} {range : Option (K × K)} (h : within range fs ≠ []) :
    freqsUse fs (asList range) = .ok (within range fs) := by
  match range, h with
  | none, _ => rfl
  | some r, h =>
    have e : (fs.filter fun (f : Nat) => decide (r.1 ≤ (f : K)) && decide ((f : K) ≤ r.2)) = within (some r) fs := by
      simp [within]
    simp only [asList, Option.map_some, freqsUse, e]
    rw [if_neg]
    have := List.length_pos_iff.2 h
    omega

omit [IsStrictOrderedRing K] [FloorRing K] in
theorem within_sub {fs : List Nat} {range : Option (K × K)} {f : Nat} (h : f ∈ within range fs) : f ∈ fs := by
  match range with
  | none => exact h
  | some r => exact (List.mem_filter.1 h).1

theorem mem_za (E : Env K C) {ppd : K} (hp : 0 < ppd) (hπ : 0 < E.pi) {i : Nat} {θ : K} (h : (thetaArr E ppd)[i]? = some θ) :
    0 ≤ θ ∧ θ ≤ E.pi / 2 := by
  unfold thetaArr at h
  rw [List.getElem?_map, Option.map_eq_some_iff] at h
  obtain ⟨k, hk, rfl⟩ := h
  rw [List.getElem?_eq_some_iff] at hk
  obtain ⟨hk, rfl⟩ := hk
  simp only [List.length_range] at hk
  rw [List.getElem_range]
  have h1 : ((i : Int) : K) ≤ 90 * ppd := by
    rw [← Int.le_floor]; omega
  have h2 : (i : K) / ppd ≤ 90 := by
    rw [div_le_iff₀ hp]; simpa using h1
  have h3 : 0 ≤ (i : K) / ppd := div_nonneg (Nat.cast_nonneg _) hp.le
  unfold rad
  refine ⟨by positivity, ?_⟩
  rw [div_le_div_iff₀ (by norm_num) (by norm_num)]
  nlinarith

omit [LinearOrder K] [IsStrictOrderedRing K] [FloorRing K] in
theorem volt_fixed (E : Env K C) (f : Nat) (d : Int) (a : K) :
    volt E f (if d = 32 then 0 else d) (if d = 32 then 0 else a) = excitation E f d a := by
  unfold volt excitation
  by_cases h : d = 32
  · simp [h]
  · simp only [h, if_false]
    congr 2
    push_cast
    ring

omit [LinearOrder K] [IsStrictOrderedRing K] [FloorRing K] in
theorem zip_fixed {d : List Int} {a : List K} (dips : List Str) (h : d.length = a.length) :
    dips.zip ((d.map fun x => if x = 32 then 0 else x).zip (List.zipWith (fun d a => if d = 32 then 0 else a) d a)) =
      (dips.zip (d.zip a)).map fun x => (x.1, (if x.2.1 = 32 then 0 else x.2.1), (if x.2.1 = 32 then 0 else x.2.2)) := by
  induction dips generalizing d a with
  | nil => simp
  | cons s dips ih =>
    match d, a, h with
    | [], [], _ => simp
    | x :: d, y :: a, h => simp [ih (by simpa using h)]

/-- **C187.** The beam read from a file: at each direction, feed and frequency, the first component is the sum over dipoles of
excitation voltage times the field of that dipole along the zenith angle, the second is minus that along azimuth.
Delays and amplitudes belong to the dipoles in the order of their names as texts. -/
theorem read_field (E : Env K C) (h : Holds file c) {delays : List (List Int)} {amps : List (List K)}
    (hd : delays.length = c.pols.length ∧ ∀ r ∈ delays, r.length = c.dips.length)
    (ha : amps.length = c.pols.length ∧ ∀ r ∈ amps, r.length = c.dips.length)
    (h32 : ∀ r ∈ delays, ∀ d ∈ r, d ≤ 32) {ppd : K} (hp : 0 < ppd) (hπ : 0 < E.pi) (h0 : E.cos 0 = 1)
    {range : Option (K × K)} (hr : within range c.freqs ≠ []) :
    ∃ b, read E file (some delays) (some amps) ppd (asList range) = .ok b ∧
      b.feeds = c.pols.map Char.toLower ∧ b.freqs = within range c.freqs ∧ b.dips = c.dips ∧
      ∀ (p k i j : Nat) P f θ φ d a, c.pols[p]? = some P → b.freqs[k]? = some f → b.za[i]? = some θ → b.az[j]? = some φ →
        delays[p]? = some d → amps[p]? = some a →
        b.data 0 p k i j = ((c.dips.zip (d.zip a)).map fun x =>
          excitation E f x.2.1 x.2.2 * dipoleT E φ θ (c.deg P x.1 f) (c.rows P x.1 f)).sum ∧
        b.data 1 p k i j = -((c.dips.zip (d.zip a)).map fun x =>
          excitation E f x.2.1 x.2.2 * dipoleP E φ θ (c.deg P x.1 f) (c.rows P x.1 f)).sum := by
  obtain ⟨names, hn, e1, e2, e3⟩ := h.lists
  have hlen : delays.length = amps.length := by rw [hd.1, ha.1]
  obtain ⟨ms, hm1, hm2, hm3⟩ := allModes_ok E h (c.pols.zip ((fixDelays delays).zip (fixAmps delays amps))) (by
    intro x hx
    have h1 := List.of_mem_zip (a := x.1) (b := x.2) hx
    have h2 := List.of_mem_zip (a := x.2.1) (b := x.2.2) h1.2
    refine ⟨h1.1, ?_, ?_⟩
    · obtain ⟨r, hr, e⟩ := List.mem_map.1 h2.1
      rw [← e, List.length_map]; exact hd.2 r hr
    · obtain ⟨i, hi, e⟩ := List.getElem_of_mem h2.2
      unfold fixAmps at hi e
      rw [List.getElem_zipWith] at e
      rw [← e, List.length_zipWith, hd.2 _ (List.getElem_mem _), ha.2 _ (List.getElem_mem _), Nat.min_self])
  have hzl : (c.pols.zip ((fixDelays delays).zip (fixAmps delays amps))).length = c.pols.length := by
    simp [fixDelays, fixAmps, hd.1, ha.1]
  have hall : (c.pols.zip ms).all (fun x => x.2.all fun y =>
      decide (y.1 ∈ within range c.freqs → shapesOk y.2 (maxLength file x.1 y.1))) = true := by
    rw [List.all_eq_true]
    intro x hx
    rw [List.all_eq_true]
    intro y hy
    apply decide_eq_true
    intro hy'
    obtain ⟨i, hi, e⟩ := List.getElem_of_mem hx
    have hi' := hi
    rw [List.length_zip, hm2, hzl, Nat.min_self] at hi'
    rw [List.getElem_zip] at e
    have h3 := hm3 i _ _ (List.getElem?_eq_getElem (by rw [hzl]; exact hi')) (List.getElem?_eq_getElem (by rw [hm2, hzl]; exact hi'))
    have hx1 : c.pols[i] = x.1 := by rw [← e]
    have hx2 : ms[i] = x.2 := by rw [← e]
    rw [hx2] at h3
    have := h3.2 y hy
    rw [List.getElem_zip] at this
    dsimp only at this
    rw [hx1] at this
    exact summed_shapes E h (hx1 ▸ List.getElem_mem _) (within_sub hy') this
  refine ⟨{ freqs := within range c.freqs, feeds := c.pols.map Char.toLower, dips := c.dips, az := phiArr E ppd, za := thetaArr E ppd,
            data := dataOf E ms (within range c.freqs) (phiArr E ppd) (thetaArr E ppd), basis := basisOf,
            delays := fixDelays delays, amps := fixAmps delays amps }, ?_, rfl, rfl, rfl, ?_⟩
  · unfold read
    rw [hn]
    simp only [Except.bind, e1, e2, e3, Option.getD_some]
    rw [if_neg (not_not.2 ⟨ha.1, ha.2⟩), if_neg (not_not.2 ⟨hd.1, hd.2⟩), if_neg, freqsUse_ok hr]
    · dsimp only
      rw [hm1]
      dsimp only
      rw [if_neg (not_not.2 hall)]
    · simp only [List.any_eq_true, decide_eq_true_eq, not_exists, not_and, not_lt]
      exact fun r hr d hd => h32 r hr d hd
  · intro p k i j P f θ φ d a hP hf hθ hφ hdp hap
    dsimp only at hf hθ hφ ⊢
    have hpl : p < c.pols.length := (List.getElem?_eq_some_iff.1 hP).1
    obtain ⟨r, hr'⟩ : ∃ r, ms[p]? = some r := ⟨_, List.getElem?_eq_getElem (by rw [hm2, hzl]; exact hpl)⟩
    have hz : (c.pols.zip ((fixDelays delays).zip (fixAmps delays amps)))[p]? =
        some (P, d.map (fun x => if x = 32 then 0 else x), List.zipWith (fun d a => if d = 32 then 0 else a) d a) := by
      rw [List.getElem?_zip_eq_some]
      refine ⟨hP, ?_⟩
      rw [List.getElem?_zip_eq_some]
      refine ⟨by simp [fixDelays, hdp], ?_⟩
      simp [fixAmps, List.getElem?_zipWith, hdp, hap]
    obtain ⟨h3, h4⟩ := hm3 p _ r hz hr'
    dsimp only at h4
    have hfu : f ∈ within range c.freqs := List.mem_of_getElem? hf
    have hfr : f ∈ r.map (·.1) := h3 ▸ within_sub hfu
    obtain ⟨y, hy, hye⟩ : ∃ y, r.find? (fun x => decide (some x.1 = some f)) = some y ∧ y.1 = f := by
      obtain ⟨z, hz, hze⟩ := List.mem_map.1 hfr
      cases hfd : r.find? (fun x => decide (some x.1 = some f)) with
      | none =>
        have := List.find?_eq_none.1 hfd z hz
        simp [hze] at this
      | some y => exact ⟨y, rfl, by simpa using List.find?_some hfd⟩
    have hs := h4 y (List.mem_of_find?_eq_some hy)
    rw [hye] at hs
    have hθ' := mem_za E hp hπ hθ
    have hne : θ ≠ E.pi := by intro e; linarith [hθ'.2]
    have hdl := hd.2 d (List.mem_of_getElem? hdp)
    have hal := ha.2 a (List.mem_of_getElem? hap)
    have hres := summed_response E h (List.mem_of_getElem? hP) (within_sub hfu)
      (fun x hx => (List.of_mem_zip (a := x.1) (b := x.2) hx).1) hs φ θ hne h0
    rw [zip_fixed c.dips (by omega)] at hres
    simp only [List.map_map, Function.comp_def, volt_fixed] at hres
    unfold dataOf
    simp only [hr', hf, hθ, hφ, Option.getD_some, hy, Option.map_some, hres, if_true, one_ne_zero, if_false, and_self]

end

end Verif.MwaBeam
