import Mathlib.Tactic.IntervalCases
import Verif.MwaBeam.Read

/-!
# Which dipole a delay is for, terminated dipoles, directions and labels
-/

namespace Verif.MwaBeam

/-! ## Order of dipoles -/

theorem ofDigits_lt (s : Str) (h : s.all Char.isDigit) : Nat.ofDigitChars 10 s 0 < 10 ^ s.length := by
  induction s with
  | nil => simp
  | cons c s ih =>
    rw [List.all_cons, Bool.and_eq_true] at h
    rw [Nat.ofDigitChars_cons, Nat.ofDigitChars_eq_ofDigitChars_zero]
    have := ih h.2
    have hc : c.toNat - '0'.toNat ≤ 9 := by
      have := h.1
      simp only [Char.isDigit, Bool.and_eq_true, decide_eq_true_eq] at this
      have h2 := UInt32.le_iff_toNat_le.1 this.2
      have : '0'.toNat = 48 := rfl
      have e : '9'.val.toNat = 57 := rfl
      rw [e] at h2
      have : c.toNat = c.val.toNat := rfl
      omega
    rw [List.length_cons, pow_succ]
    have : 10 ^ s.length * (10 * 0 + (c.toNat - '0'.toNat)) ≤ 10 ^ s.length * 9 := Nat.mul_le_mul_left _ (by omega)
    omega

theorem digit_ge {c : Char} (h : c.isDigit) : 48 ≤ c.toNat := by
  simp only [Char.isDigit, Bool.and_eq_true, decide_eq_true_eq] at h
  exact UInt32.le_iff_toNat_le.1 h.1

theorem ofDigits_mono {s t : Str} (hs : s.all Char.isDigit) (ht : t.all Char.isDigit) (hl : s.length = t.length) (h : s < t) :
    Nat.ofDigitChars 10 s 0 < Nat.ofDigitChars 10 t 0 := by
  induction s generalizing t with
  | nil =>
    match t, hl with
    | [], _ => exact absurd h (lt_irrefl _)
  | cons c s ih =>
    match t, hl with
    | d :: t, hl =>
      rw [List.all_cons, Bool.and_eq_true] at hs ht
      rw [Nat.ofDigitChars_cons, Nat.ofDigitChars_cons, Nat.ofDigitChars_eq_ofDigitChars_zero,
        Nat.ofDigitChars_eq_ofDigitChars_zero (l := t)]
      have hl' : s.length = t.length := by simpa using hl
      rw [hl']
      have e0 : '0'.toNat = 48 := rfl
      rcases List.cons_lt_cons_iff.1 h with h | ⟨rfl, h'⟩
      · have hcd : c.toNat < d.toNat := by
          have : c.val < d.val := h
          exact UInt32.lt_iff_toNat_lt.1 this
        have h1 := digit_ge hs.1
        have h2 := ofDigits_lt s hs.2
        rw [hl'] at h2
        have : 10 ^ t.length * (10 * 0 + (c.toNat - '0'.toNat)) + 10 ^ t.length ≤
            10 ^ t.length * (10 * 0 + (d.toNat - '0'.toNat)) := by
          rw [← Nat.mul_succ]; exact Nat.mul_le_mul_left _ (by omega)
        omega
      · have := ih hs.2 ht.2 hl' h'
        omega

theorem digits_all (n : Nat) : (Nat.toDigits 10 n).all Char.isDigit :=
  List.all_eq_true.2 fun _ hc => Nat.isDigit_of_mem_toDigits (by decide) (by decide) hc

/-- **C188.** Numbers written with the same number of digits stand in the same order as texts and as numbers. -/
theorem texts_in_order {a b : Nat} (hl : (Nat.toDigits 10 a).length = (Nat.toDigits 10 b).length) (h : a < b) :
    Nat.toDigits 10 a < Nat.toDigits 10 b := by
  rcases lt_trichotomy (Nat.toDigits 10 a) (Nat.toDigits 10 b) with h' | h' | h'
  · exact h'
  · have := congrArg (fun s => Nat.ofDigitChars 10 s 0) h'
    simp only [Nat.ofDigitChars_ten_toDigits] at this
    omega
  · have := ofDigits_mono (digits_all b) (digits_all a) hl.symm h'
    simp only [Nat.ofDigitChars_ten_toDigits] at this
    omega

section
variable {K : Type} {file : File K} {c : Content K}

/-- **C188.** If the dipoles of a file are numbered and all numbers have as many digits, the dipoles stand in the order of
their numbers, so the `k`-th delay is for the dipole of the `k`-th lowest number. -/
theorem dipoles_in_order_partial (h : Holds file c) (ns : List Nat) (hs : ns.Pairwise (· < ·)) (L : Nat)
    (hl : ∀ n ∈ ns, (Nat.toDigits 10 n).length = L) (hd : ∀ d, d ∈ c.dips ↔ ∃ n ∈ ns, d = Nat.toDigits 10 n) :
    c.dips = ns.map (Nat.toDigits 10) := by
  refine h.dipS.eq_of_mem_iff (r := (· < ·)) ?_ fun {a} => ?_
  · rw [List.pairwise_map]
    exact hs.imp_of_mem fun ha hb hab => texts_in_order ((hl _ ha).trans (hl _ hb).symm) hab
  · rw [hd, List.mem_map]
    exact ⟨fun ⟨n, hn, e⟩ => ⟨n, hn, e.symm⟩, fun ⟨n, hn, e⟩ => ⟨n, hn, e.symm⟩⟩

/-- **C188.** With the sixteen dipoles of a tile, numbered from 1 to 16, the second delay is for the dipole 10 and the eighth
delay is for the dipole 16: only the first is for the dipole of its number. -/
theorem sixteen_counterexample (h : Holds file c) (hd : ∀ d, d ∈ c.dips ↔ ∃ n, 1 ≤ n ∧ n ≤ 16 ∧ d = Nat.toDigits 10 n) :
    c.dips = [1, 10, 11, 12, 13, 14, 15, 16, 2, 3, 4, 5, 6, 7, 8, 9].map (Nat.toDigits 10) ∧
    ∀ (k : Nat), k < 16 → (c.dips[k]? = some (Nat.toDigits 10 (k + 1)) ↔ k = 0) := by
  have e : c.dips = [1, 10, 11, 12, 13, 14, 15, 16, 2, 3, 4, 5, 6, 7, 8, 9].map (Nat.toDigits 10) := by
    refine h.dipS.eq_of_mem_iff (r := (· < ·)) (by decide +kernel) fun {a} => ?_
    rw [hd, List.mem_map]
    constructor
    · rintro ⟨n, h1, h2, rfl⟩
      refine ⟨n, ?_, rfl⟩
      interval_cases n <;> simp
    · rintro ⟨n, hn, rfl⟩
      refine ⟨n, ?_, ?_, rfl⟩
      · revert n; decide
      · revert n; decide
  refine ⟨e, ?_⟩
  rw [e]
  decide +kernel

end

section
variable {K C : Type} [Field K] [LinearOrder K] [IsStrictOrderedRing K] [FloorRing K] [CommRing C] {file : File K} {c : Content K}

/-! ## What a read leaves -/

omit [IsStrictOrderedRing K] in
theorem read_inv (E : Env K C) {delays : List (List Int)} {amps : Option (List (List K))} {ppd : K} {range : Option (List K)}
    {b : Beam K C} (h : read E file (some delays) amps ppd range = .ok b) :
    b.delays = fixDelays delays ∧ b.az = phiArr E ppd ∧ b.za = thetaArr E ppd ∧ b.basis = basisOf ∧
      (∀ a, amps = some a → b.amps = fixAmps delays a) ∧ ∀ r ∈ delays, ∀ d ∈ r, d ≤ 32 := by
  unfold read at h
  cases hn : parsed (file.tables.map (·.1)) with
  | error e => rw [hn] at h; simp [Except.bind] at h
  | ok names =>
    rw [hn] at h
    simp only [Except.bind, Option.getD_some] at h
    split at h
    · simp at h
    split at h
    · simp at h
    split at h
    · simp at h
    rename_i h32
    split at h
    · simp at h
    split at h
    · simp at h
    split at h
    · simp at h
    rw [Except.ok.injEq] at h
    subst h
    refine ⟨rfl, rfl, rfl, rfl, fun a e => by subst e; rfl, ?_⟩
    simpa using h32

omit [IsStrictOrderedRing K] in
/-- **C189.** Without amplitudes, all are one; without delays, all are zero. -/
theorem read_default (E : Env K C) (h : Holds file c) (delays : Option (List (List Int))) (amps : Option (List (List K))) (ppd : K)
    (range : Option (List K)) :
    read E file delays amps ppd range =
      read E file (some (delays.getD (List.replicate c.pols.length (List.replicate c.dips.length 0))))
        (some (amps.getD (List.replicate c.pols.length (List.replicate c.dips.length 1)))) ppd range := by
  obtain ⟨names, hn, e1, e2, e3⟩ := h.lists
  unfold read
  rw [hn]
  simp only [Except.bind, e1, e2, e3, Option.getD_some]

omit [IsStrictOrderedRing K] in
/-- **C189.** A delay above 32 is refused. -/
theorem big_refused (E : Env K C) {delays : List (List Int)} {amps : Option (List (List K))} {ppd : K} {range : Option (List K)}
    {r : List Int} (hr : r ∈ delays) {d : Int} (hd : d ∈ r) (h : 32 < d) (b : Beam K C) :
    read E file (some delays) amps ppd range ≠ .ok b := by
  intro e
  have := (read_inv E e).2.2.2.2.2 r hr d hd
  omega

omit [IsStrictOrderedRing K] in
/-- **C189.** Delays or amplitudes of another shape than feeds by dipoles are refused. -/
theorem shape_refused (E : Env K C) (h : Holds file c) {delays : List (List Int)} {amps : List (List K)} {ppd : K}
    {range : Option (List K)}
    (hs : ¬(delays.length = c.pols.length ∧ ∀ r ∈ delays, r.length = c.dips.length) ∨
      ¬(amps.length = c.pols.length ∧ ∀ r ∈ amps, r.length = c.dips.length)) (b : Beam K C) :
    read E file (some delays) (some amps) ppd range ≠ .ok b := by
  obtain ⟨names, hn, e1, e2, e3⟩ := h.lists
  unfold read
  rw [hn]
  simp only [Except.bind, e1, e2, e3, Option.getD_some]
  split
  · simp
  rename_i ha
  rw [if_pos]
  · simp
  · rcases hs with hs | hs
    · exact hs
    · exact absurd (not_not.1 ha) hs

omit [IsStrictOrderedRing K] in
/-- **C189.** The arrays of the caller are changed by the call: delays of terminated dipoles become zero, and so do their amplitudes. -/
theorem arrays_changed (E : Env K C) {delays : List (List Int)} {amps : List (List K)} {ppd : K} {range : Option (List K)}
    {b : Beam K C} (h : read E file (some delays) (some amps) ppd range = .ok b) :
    (∀ (p q : Nat) d, (delays[p]?.bind fun r => r[q]?) = some d →
      (b.delays[p]?.bind fun r => r[q]?) = some (if d = 32 then 0 else d)) ∧
    (∀ (p q : Nat) d a, (delays[p]?.bind fun r => r[q]?) = some d → (amps[p]?.bind fun r => r[q]?) = some a →
      (b.amps[p]?.bind fun r => r[q]?) = some (if d = 32 then 0 else a)) := by
  obtain ⟨h1, -, -, -, h2, -⟩ := read_inv E h
  rw [h1, h2 amps rfl]
  constructor
  · intro p q d hd
    obtain ⟨r, hr, hd⟩ := Option.bind_eq_some_iff.1 hd
    simp [fixDelays, hr, hd]
  · intro p q d a hd ha
    obtain ⟨r, hr, hd⟩ := Option.bind_eq_some_iff.1 hd
    obtain ⟨s, hs, ha⟩ := Option.bind_eq_some_iff.1 ha
    simp [fixAmps, List.getElem?_zipWith, hr, hd, hs, ha]

omit [IsStrictOrderedRing K] [FloorRing K] [LinearOrder K] in
theorem sum_terminated (l : List (Str × Int × K)) (E : Env K C) (f : Nat) (hl : ∀ x ∈ l, x.2.2 = 1) (F : Str → C) :
    ((l.map fun x => (x.1, (if x.2.1 = 32 then 0 else x.2.1), x.2.2)).map fun x => excitation E f x.2.1 x.2.2 * F x.1).sum =
      (l.map fun x => excitation E f x.2.1 x.2.2 * F x.1).sum +
        ((l.filter fun x => decide (x.2.1 = 32)).map fun x => E.cis 0 * F x.1).sum := by
  induction l with
  | nil => simp
  | cons x l ih =>
    simp only [List.map_cons, List.sum_cons]
    rw [ih fun y hy => hl y (by simp [hy])]
    have hx := hl x (by simp)
    by_cases h : x.2.1 = 32
    · rw [List.filter_cons_of_pos (by simpa using h), List.map_cons, List.sum_cons]
      simp [h, excitation, hx]
      ring
    · rw [List.filter_cons_of_neg (by simpa using h)]
      simp only [h, if_false]
      ring

/-- **C189.** A second read with the same array of delays, without amplitudes, takes the terminated dipoles for live ones: to the
field of the first read it adds the field of every terminated dipole. -/
theorem again_counterexample (E : Env K C) (h : Holds file c) {delays : List (List Int)}
    (hd : delays.length = c.pols.length ∧ ∀ r ∈ delays, r.length = c.dips.length)
    (h32 : ∀ r ∈ delays, ∀ d ∈ r, d ≤ 32) {ppd : K} (hp : 0 < ppd) (hπ : 0 < E.pi) (h0 : E.cos 0 = 1) :
    ∃ b b', read E file (some delays) none ppd none = .ok b ∧ read E file (some b.delays) none ppd none = .ok b' ∧
      ∀ (p k i j : Nat) P f θ φ d, c.pols[p]? = some P → c.freqs[k]? = some f → b.za[i]? = some θ → b.az[j]? = some φ →
        delays[p]? = some d →
        b'.data 0 p k i j = b.data 0 p k i j + (((c.dips.zip d).filter fun x => decide (x.2 = 32)).map fun x =>
          E.cis 0 * dipoleT E φ θ (c.deg P x.1 f) (c.rows P x.1 f)).sum := by
  have hr : within (none : Option (K × K)) c.freqs ≠ [] := h.freqNe
  have ha : (List.replicate c.pols.length (List.replicate c.dips.length (1 : K))).length = c.pols.length ∧
      ∀ r ∈ List.replicate c.pols.length (List.replicate c.dips.length (1 : K)), r.length = c.dips.length :=
    ⟨by simp, fun r hr => by rw [List.eq_of_mem_replicate hr]; simp⟩
  obtain ⟨b, hb, -, hb2, -, hb3⟩ := read_field E h hd ha h32 hp hπ h0 hr
  have hbd := (read_inv E hb).1
  have hd' : b.delays.length = c.pols.length ∧ ∀ r ∈ b.delays, r.length = c.dips.length := by
    rw [hbd]
    refine ⟨by simp [fixDelays, hd.1], fun r hr => ?_⟩
    obtain ⟨s, hs, rfl⟩ := List.mem_map.1 hr
    rw [List.length_map]; exact hd.2 s hs
  have h32' : ∀ r ∈ b.delays, ∀ d ∈ r, d ≤ 32 := by
    rw [hbd]
    intro r hr d hd
    obtain ⟨s, hs, rfl⟩ := List.mem_map.1 hr
    obtain ⟨x, hx, rfl⟩ := List.mem_map.1 hd
    have := h32 s hs x hx
    split <;> omega
  obtain ⟨b', hb', -, hb2', -, hb3'⟩ := read_field E h hd' ha h32' hp hπ h0 hr
  refine ⟨b, b', by rw [read_default E h]; exact hb, by rw [read_default E h]; exact hb', ?_⟩
  intro p k i j P f θ φ d hP hf hθ hφ hdp
  have hpl := (List.getElem?_eq_some_iff.1 hP).1
  have hone : (List.replicate c.pols.length (List.replicate c.dips.length (1 : K)))[p]? = some (List.replicate c.dips.length 1) := by
    rw [List.getElem?_replicate, if_pos hpl]
  have e1 := (hb3 p k i j P f θ φ d _ hP (by rw [hb2]; exact hf) hθ hφ hdp hone).1
  have hdp' : b.delays[p]? = some (d.map fun x => if x = 32 then 0 else x) := by rw [hbd]; simp [fixDelays, hdp]
  have hz : b'.za = b.za := by rw [(read_inv E hb').2.2.1, (read_inv E hb).2.2.1]
  have hz' : b'.az = b.az := by rw [(read_inv E hb').2.1, (read_inv E hb).2.1]
  have e2 := (hb3' p k i j P f θ φ _ _ hP (by rw [hb2']; exact hf) (by rw [hz]; exact hθ) (by rw [hz']; exact hφ) hdp' hone).1
  have hdl := hd.2 d (List.mem_of_getElem? hdp)
  rw [e1, e2]
  have hzip : ∀ (s : List Str) (d : List Int) (n : Nat), d.length = n → s.zip ((d.map fun x => if x = 32 then 0 else x).zip (List.replicate n (1 : K))) =
      (s.zip (d.zip (List.replicate n (1 : K)))).map fun x => (x.1, (if x.2.1 = 32 then 0 else x.2.1), x.2.2) := by
    intro s
    induction s with
    | nil => intros; simp
    | cons a s ih =>
      intro d n hn
      match d, hn with
      | [], _ => simp
      | y :: d, hn =>
        subst hn
        simp [List.replicate_succ, ih d d.length rfl]
  have hfil : ∀ (s : List Str) (d : List Int) (n : Nat) (F : Str → C), d.length = n →
      (((s.zip (d.zip (List.replicate n (1 : K)))).filter fun x => decide (x.2.1 = 32)).map fun x => E.cis 0 * F x.1).sum =
      (((s.zip d).filter fun x => decide (x.2 = 32)).map fun x => E.cis 0 * F x.1).sum := by
    intro s
    induction s with
    | nil => intros; simp
    | cons a s ih =>
      intro d n F hn
      match d, hn with
      | [], _ => simp
      | y :: d, hn =>
        subst hn
        have := ih d d.length F rfl
        by_cases hy : y = 32
        · simp [List.replicate_succ, hy, this]
        · simp [List.replicate_succ, hy, this]
  rw [hzip c.dips d _ hdl]
  rw [sum_terminated _ E f (fun x hx => List.eq_of_mem_replicate (List.of_mem_zip (List.of_mem_zip hx).2).2)
    (fun s => dipoleT E φ θ (c.deg P s f) (c.rows P s f))]
  rw [hfil c.dips d _ (fun s => dipoleT E φ θ (c.deg P s f) (c.rows P s f)) hdl]

/-! ## Frequencies, directions and labels -/

omit [IsStrictOrderedRing K] in
/-- **C190.** A range without frequencies of the file is refused, and so is a range that is not two numbers. -/
theorem range_refused (E : Env K C) (h : Holds file c) {delays : Option (List (List Int))} {amps : Option (List (List K))} {ppd : K}
    {range : List K} (hr : range.length ≠ 2 ∨ ∃ a b, range = [a, b] ∧ ∀ f ∈ c.freqs, ¬(a ≤ (f : K) ∧ (f : K) ≤ b)) (b : Beam K C) :
    read E file delays amps ppd (some range) ≠ .ok b := by
  obtain ⟨names, hn, e1, e2, e3⟩ := h.lists
  have hu : ∃ e, freqsUse c.freqs (some range) = .error e := by
    rcases hr with hr | ⟨x, y, rfl, hr⟩
    · match range, hr with
      | [], _ => exact ⟨_, rfl⟩
      | [_], _ => exact ⟨_, rfl⟩
      | [_, _], hr => exact absurd rfl hr
      | _ :: _ :: _ :: _, _ => exact ⟨_, rfl⟩
    · refine ⟨.noFreq, ?_⟩
      unfold freqsUse
      dsimp only
      rw [if_pos]
      rw [List.filter_eq_nil_iff.2]
      · simp
      · intro f hf
        have := hr f hf
        simpa using this
  obtain ⟨e, hu⟩ := hu
  unfold read
  rw [hn]
  simp only [Except.bind, e1, e2, e3, hu]
  split
  · simp
  split
  · simp
  split
  · simp
  · simp

/-- **C190.** Zenith angles run from the zenith towards the horizon in steps of one pixel, azimuths from zero in the same steps;
no zenith angle is below the horizon and no azimuth is a whole turn or more. -/
theorem directions (E : Env K C) {delays : List (List Int)} {amps : Option (List (List K))} {ppd : K} {range : Option (List K)}
    {b : Beam K C} (h : read E file (some delays) amps ppd range = .ok b) (hp : 0 < ppd) (hπ : 0 < E.pi) :
    (∀ (i : Nat) θ, b.za[i]? = some θ → θ = (i : K) * (E.pi / 180 / ppd) ∧ 0 ≤ θ ∧ θ ≤ E.pi / 2) ∧
    (∀ (j : Nat) φ, b.az[j]? = some φ → φ = (j : K) * (E.pi / 180 / ppd) ∧ 0 ≤ φ ∧ φ < 2 * E.pi) ∧
    (∀ i : Nat, i < b.za.length ↔ (i : K) * (E.pi / 180 / ppd) ≤ E.pi / 2) ∧
    (∀ j : Nat, j < b.az.length ↔ ((j : K) + 1) * (E.pi / 180 / ppd) ≤ 2 * E.pi) := by
  obtain ⟨-, haz, hza, -, -, -⟩ := read_inv E h
  have hs : 0 < E.pi / 180 / ppd := by positivity
  have hzl : ∀ i : Nat, i < b.za.length ↔ (i : K) * (E.pi / 180 / ppd) ≤ E.pi / 2 := by
    intro i
    rw [hza, thetaArr, List.length_map, List.length_range]
    have h1 : i < (⌊90 * ppd⌋ + 1).toNat ↔ ((i : Int) : K) ≤ 90 * ppd := by rw [← Int.le_floor]; omega
    rw [h1, Int.cast_natCast]
    have e : (i : K) * (E.pi / 180 / ppd) = (i : K) * E.pi / (180 * ppd) := by field_simp
    rw [e, div_le_div_iff₀ (by positivity) (by norm_num)]
    constructor
    · intro h; nlinarith
    · intro h; by_contra hc; push Not at hc; nlinarith
  have hal : ∀ j : Nat, j < b.az.length ↔ ((j : K) + 1) * (E.pi / 180 / ppd) ≤ 2 * E.pi := by
    intro j
    rw [haz, phiArr, List.length_map, List.length_range]
    have h1 : j < ⌊360 * ppd⌋.toNat ↔ (((j : Int) + 1 : Int) : K) ≤ 360 * ppd := by rw [← Int.le_floor]; omega
    rw [h1]
    push_cast
    have e : ((j : K) + 1) * (E.pi / 180 / ppd) = ((j : K) + 1) * E.pi / (180 * ppd) := by field_simp
    rw [e, div_le_iff₀ (by positivity)]
    constructor
    · intro h; nlinarith
    · intro h; by_contra hc; push Not at hc; nlinarith
  refine ⟨?_, ?_, hzl, hal⟩
  · intro i θ hi
    have hlt := (List.getElem?_eq_some_iff.1 hi).1
    have hle := (hzl i).1 hlt
    rw [hza, thetaArr, List.getElem?_map, Option.map_eq_some_iff] at hi
    obtain ⟨k, hk, rfl⟩ := hi
    rw [List.getElem?_eq_some_iff] at hk
    obtain ⟨_, rfl⟩ := hk
    rw [List.getElem_range]
    have e : rad E ((i : K) / ppd) = (i : K) * (E.pi / 180 / ppd) := by unfold rad; field_simp
    rw [e]
    exact ⟨rfl, by positivity, hle⟩
  · intro j φ hj
    have hlt := (List.getElem?_eq_some_iff.1 hj).1
    have hle := (hal j).1 hlt
    rw [haz, phiArr, List.getElem?_map, Option.map_eq_some_iff] at hj
    obtain ⟨k, hk, rfl⟩ := hj
    rw [List.getElem?_eq_some_iff] at hk
    obtain ⟨_, rfl⟩ := hk
    rw [List.getElem_range]
    have e : rad E ((j : K) / ppd) = (j : K) * (E.pi / 180 / ppd) := by unfold rad; field_simp
    rw [e]
    exact ⟨rfl, by positivity, by linarith⟩

/-- **C190.** If a turn is not a whole number of pixels, the azimuths do not close: from the last azimuth to a whole turn is
more than one step. -/
theorem turn_counterexample (E : Env K C) {delays : List (List Int)} {amps : Option (List (List K))} {ppd : K} {range : Option (List K)}
    {b : Beam K C} (h : read E file (some delays) amps ppd range = .ok b) (hp : 0 < ppd) (hπ : 0 < E.pi)
    (hi : ∀ n : Nat, 360 * ppd ≠ (n : K)) : ∀ φ, b.az.getLast? = some φ → φ + E.pi / 180 / ppd < 2 * E.pi := by
  intro φ hφ
  rw [List.getLast?_eq_getElem?] at hφ
  obtain ⟨-, h2, -, h4⟩ := directions E h hp hπ
  have hlt := (List.getElem?_eq_some_iff.1 hφ).1
  have hle := (h4 _).1 hlt
  have hφ' := (h2 _ _ hφ).1
  have : φ + E.pi / 180 / ppd = (((b.az.length - 1 : Nat) : K) + 1) * (E.pi / 180 / ppd) := by rw [hφ']; ring
  rw [this]
  refine lt_of_le_of_ne hle fun e => ?_
  apply hi (b.az.length - 1 + 1)
  push_cast
  have hpi : E.pi ≠ 0 := hπ.ne'
  field_simp at e
  linarith

/-- **C190.** The object says that its first component is along the first axis of the image, azimuth, and the second along zenith
angle, as for beams of CST; but the first is the field along the zenith angle and the second minus that along azimuth. -/
theorem vector_counterexample (E : Env K C) (h : Holds file c) {delays : List (List Int)} {amps : List (List K)}
    (hd : delays.length = c.pols.length ∧ ∀ r ∈ delays, r.length = c.dips.length)
    (ha : amps.length = c.pols.length ∧ ∀ r ∈ amps, r.length = c.dips.length)
    (h32 : ∀ r ∈ delays, ∀ d ∈ r, d ≤ 32) {ppd : K} (hp : 0 < ppd) (hπ : 0 < E.pi) (h0 : E.cos 0 = 1) :
    ∃ b, read E file (some delays) (some amps) ppd none = .ok b ∧
      (∀ i j, b.basis 0 0 i j = 1 ∧ b.basis 0 1 i j = 0 ∧ b.basis 1 0 i j = 0 ∧ b.basis 1 1 i j = 1) ∧
      ∀ (p k i j : Nat) P f θ φ d a, c.pols[p]? = some P → c.freqs[k]? = some f → b.za[i]? = some θ → b.az[j]? = some φ →
        delays[p]? = some d → amps[p]? = some a →
        b.data 0 p k i j = ((c.dips.zip (d.zip a)).map fun x =>
          excitation E f x.2.1 x.2.2 * dipoleT E φ θ (c.deg P x.1 f) (c.rows P x.1 f)).sum := by
  obtain ⟨b, hb, -, hb2, -, hb3⟩ := read_field E h hd ha h32 hp hπ h0 (range := none) h.freqNe
  refine ⟨b, hb, ?_, fun p k i j P f θ φ d a h1 h2 h3 h4 h5 h6 => (hb3 p k i j P f θ φ d a h1 (by rw [hb2]; exact h2) h3 h4 h5 h6).1⟩
  intro i j
  rw [(read_inv E hb).2.2.2.1]
  simp [basisOf]

/-- **C190.** At the nadir `P1sin` uses a difference on the wrong side: for degree one its value is `+1`, while next to the nadir
it is `-1`.  (The Legendre polynomial is taken as given outside of `[-1, 1]`, where the difference asks for it.) -/
theorem nadir_counterexample (E : Env K C) (h0 : ∀ x, E.leg 0 1 x = x) (h1 : ∀ θ, E.leg 1 1 (E.cos θ) = -E.sin θ)
    {θ : K} (hθ : E.cos θ = -1) {θ' : K} (hn : E.sin θ' ≠ 0) (hc : E.cos θ' ≠ 1) (hc' : E.cos θ' ≠ -1) :
    (p1sin E 1 θ)[(2 : Nat)]? = some 1 ∧ (p1sin E 1 θ')[(2 : Nat)]? = some (-1 : K) := by
  have hne : ¬(-1 : K) = 1 := by
    intro h; have : (-1 : K) < 1 := by linarith [zero_lt_one (α := K)]
    exact absurd h this.ne
  constructor
  · have hd : (deltaCos : K) ≠ 0 := by unfold deltaCos; positivity
    have e : List.range 2 = [0, 1] := rfl
    simp [p1sin, pmSin, hθ, hne, block, h0, e, List.range', hd]
  · have e : List.range 2 = [0, 1] := rfl
    simp [p1sin, pmSin, hc, hc', block, legRow, e, List.range', h1, hn]

end

end Verif.MwaBeam
