import Verif.Phase.Spec

/-!
# Masks and phases
-/

namespace Verif.Phase

open Verif.Coord (V3)
open Verif.Phasing (pick)
open Verif.PhaseCat (St PointsAt unprojected)

/-! ## Masks -/

/-- The number of selected places before place `i`. -/
def rank (m : List Bool) (i : Nat) : Nat := (m.take i).count true

section Masks
variable {α : Type}

@[simp] theorem pick_nil (xs : List α) : pick [] xs = [] := by simp [pick]
@[simp] theorem pick_cons_true (m : List Bool) (x : α) (xs : List α) :
    pick (true :: m) (x :: xs) = x :: pick m xs := by simp [pick]
@[simp] theorem pick_cons_false (m : List Bool) (x : α) (xs : List α) :
    pick (false :: m) (x :: xs) = pick m xs := by simp [pick]

theorem maskSet_length : ∀ (m : List Bool) (xs vs : List α), (maskSet m xs vs).length = xs.length := by
  intro m
  induction m with
  | nil => intro xs vs; simp [maskSet]
  | cons b m ih =>
    intro xs vs
    cases xs with
    | nil => cases b <;> simp [maskSet]
    | cons x xs =>
      cases b with
      | false => simp [maskSet, ih]
      | true => cases vs <;> simp [maskSet, ih]

theorem maskFill_length (m : List Bool) (xs : List α) (v : α) : (maskFill m xs v).length = xs.length :=
  maskSet_length _ _ _

theorem maskSet_false : ∀ (m : List Bool) (xs vs : List α) (i : Nat), m[i]? = some false →
    (maskSet m xs vs)[i]? = xs[i]? := by
  intro m
  induction m with
  | nil => intro xs vs i h; simp at h
  | cons b m ih =>
    intro xs vs i h
    cases xs with
    | nil => cases b <;> simp [maskSet]
    | cons x xs =>
      cases i with
      | zero =>
        simp only [List.getElem?_cons_zero, Option.some.injEq] at h
        subst h
        simp [maskSet]
      | succ i =>
        simp only [List.getElem?_cons_succ] at h
        cases b with
        | false => simpa [maskSet] using ih xs vs i h
        | true =>
          cases vs with
          | nil => simp [maskSet]
          | cons v vs => simpa [maskSet] using ih xs vs i h

theorem maskSet_true : ∀ (m : List Bool) (xs vs : List α) (i : Nat), m.length = xs.length →
    m.count true ≤ vs.length → m[i]? = some true → (maskSet m xs vs)[i]? = vs[rank m i]? := by
  intro m
  induction m with
  | nil => intro xs vs i _ _ h; simp at h
  | cons b m ih =>
    intro xs vs i hl hc h
    cases xs with
    | nil => simp at hl
    | cons x xs =>
      have hl' : m.length = xs.length := by simpa using hl
      cases i with
      | zero =>
        simp only [List.getElem?_cons_zero, Option.some.injEq] at h
        subst h
        cases vs with
        | nil => simp at hc
        | cons v vs => simp [maskSet, rank]
      | succ i =>
        simp only [List.getElem?_cons_succ] at h
        cases b with
        | false =>
          have := ih xs vs i hl' (by simpa using hc) h
          simpa [maskSet, rank] using this
        | true =>
          cases vs with
          | nil => simp at hc
          | cons v vs =>
            have := ih xs vs i hl' (by simpa using hc) h
            simpa [maskSet, rank] using this

theorem pick_rank : ∀ (m : List Bool) (xs : List α) (i : Nat), m.length = xs.length →
    m[i]? = some true → (pick m xs)[rank m i]? = xs[i]? := by
  intro m
  induction m with
  | nil => intro xs i _ h; simp at h
  | cons b m ih =>
    intro xs i hl h
    cases xs with
    | nil => simp at hl
    | cons x xs =>
      have hl' : m.length = xs.length := by simpa using hl
      cases i with
      | zero =>
        simp only [List.getElem?_cons_zero, Option.some.injEq] at h
        subst h
        simp [rank]
      | succ i =>
        simp only [List.getElem?_cons_succ] at h
        have := ih xs i hl' h
        cases b <;> simpa [rank] using this

theorem pick_count : ∀ (m : List Bool) (xs : List α), m.length = xs.length →
    (pick m xs).length = m.count true := by
  intro m
  induction m with
  | nil => intro xs _; simp
  | cons b m ih =>
    intro xs hl
    cases xs with
    | nil => simp at hl
    | cons x xs =>
      have := ih xs (by simpa using hl)
      cases b <;> simp [this]

theorem pick_all (n : Nat) (xs : List α) (h : xs.length = n) : pick (List.replicate n true) xs = xs := by
  subst h
  induction xs with
  | nil => simp
  | cons x xs ih => simpa [List.replicate_succ] using ih

theorem maskSet_all (n : Nat) (xs vs : List α) (h : xs.length = n) (h' : vs.length = n) :
    maskSet (List.replicate n true) xs vs = vs := by
  subst h
  induction xs generalizing vs with
  | nil => cases vs with
    | nil => simp [maskSet]
    | cons v vs => simp at h'
  | cons x xs ih => cases vs with
    | nil => simp at h'
    | cons v vs => simpa [List.replicate_succ, maskSet] using ih vs (by simpa using h')

theorem rank_lt {m : List Bool} {i : Nat} (h : m[i]? = some true) : rank m i < m.count true := by
  have h1 := pick_rank m m i rfl h
  rw [h] at h1
  have := (List.getElem?_eq_some_iff.1 h1).1
  rwa [pick_count m m rfl] at this

theorem maskFill_true {m : List Bool} {xs : List α} {v : α} {i : Nat} (hl : m.length = xs.length)
    (h : m[i]? = some true) : (maskFill m xs v)[i]? = some v := by
  unfold maskFill
  have hc : m.count true ≤ (List.replicate xs.length v).length := by
    rw [List.length_replicate, ← hl]; exact List.count_le_length
  rw [maskSet_true m xs _ i hl hc h, List.getElem?_replicate, if_pos]
  have := rank_lt h
  rw [List.length_replicate] at hc
  omega

theorem maskFill_false {m : List Bool} {xs : List α} {v : α} {i : Nat}
    (h : m[i]? = some false) : (maskFill m xs v)[i]? = xs[i]? := maskSet_false _ _ _ _ h

theorem bool_get {m : List Bool} {i : Nat} (h : i < m.length) : m[i]? = some true ∨ m[i]? = some false := by
  rw [List.getElem?_eq_getElem h]
  cases m[i] <;> simp

theorem true_mem {m : List Bool} {i : Nat} (h : m[i]? = some true) : true ∈ m := List.mem_of_getElem? h

end Masks

/-! ## Unprojected rows -/

theorem unprojMask_length (s : St) : (unprojMask s).length = s.ids.length := by simp [unprojMask]

theorem unprojMask_get {o : Obj} {i : Nat} (hi : i < o.st.ids.length) :
    (unprojMask o.st)[i]? = some true ↔ Unproj o i := by
  unfold unprojMask Unproj
  rw [List.getElem?_map, List.getElem?_eq_getElem hi]
  simp only [Option.map_some, Option.some.injEq, decide_eq_true_eq, List.mem_map, List.mem_filter, PointsAt]
  constructor
  · rintro ⟨⟨k, e⟩, ⟨h1, h2⟩, h3⟩
    simp only at h2 h3
    subst h3
    exact ⟨e, ⟨_, List.getElem?_eq_getElem hi, h1⟩, h2⟩
  · rintro ⟨e, ⟨k, h1, h2⟩, h3⟩
    rw [List.getElem?_eq_getElem hi, Option.some.injEq] at h1
    exact ⟨(k, e), ⟨h2, h3⟩, h1.symm⟩

theorem unprojMask_not {o : Obj} {i : Nat} (hi : i < o.st.ids.length) :
    (unprojMask o.st)[i]? = some false ↔ ¬ Unproj o i := by
  rw [← unprojMask_get hi]
  have := bool_get (m := unprojMask o.st) (i := i) (by rwa [unprojMask_length])
  rcases this with h | h <;> simp [h]

theorem unproj_lt {o : Obj} {i : Nat} (h : Unproj o i) : i < o.st.ids.length := by
  obtain ⟨e, ⟨k, h1, -⟩, -⟩ := h
  exact (List.getElem?_eq_some_iff.1 h1).1

theorem path_unique {o : Obj} {i : Nat} {w w' : ℝ} (h : Path o i w) (h' : Path o i w') : w = w' := by
  unfold Path at h h'
  rcases h with ⟨h1, h2, -⟩ | ⟨h1, v, h2, h3⟩ <;> rcases h' with ⟨h4, h5, -⟩ | ⟨h4, v', h5, h6⟩
  · rw [h2, h5]
  · exact absurd h1 h4
  · exact absurd h4 h1
  · rw [h2] at h5
    rw [h3, h6, Option.some.inj h5]

theorem path_exists {o : Obj} {i : Nat} (hi : i < o.uvw.length) : ∃ w, Path o i w := by
  by_cases h : Unproj o i
  · exact ⟨0, .inl ⟨h, rfl, hi⟩⟩
  · exact ⟨_, .inr ⟨h, _, List.getElem?_eq_getElem hi, rfl⟩⟩

theorem oldW_length (o : Obj) : (oldW o).length = o.uvw.length := by
  simp [oldW, maskFill_length]

/-- `old_w_vals` is the path of each row. -/
theorem oldW_get {o : Obj} (h : o.st.ids.length = o.uvw.length) {i : Nat} {w : ℝ} (hw : Path o i w) :
    (oldW o)[i]? = some w := by
  unfold Path at hw
  unfold oldW
  rcases hw with ⟨h1, h2, h3⟩ | ⟨h1, v, h2, h3⟩
  · rw [maskFill_true (by simp [unprojMask_length, h]) ((unprojMask_get (by omega)).2 h1), h2]
  · have hi := (List.getElem?_eq_some_iff.1 h2).1
    rw [maskFill_false ((unprojMask_not (by omega)).2 h1), List.getElem?_map, h2, h3]
    rfl

/-! ## Phases -/

theorem phasor_wave (a b f : ℝ) : wave f b * phasor (a - b) f = wave f a := by
  have h : ∀ x : ℝ, phasor x f = ⟨Real.cos (turns f x), -Real.sin (turns f x)⟩ := by
    intro x
    have e : (-1 * Complex.I * 2 * (Real.pi : ℂ) * ((x * (1 / lightSpeed) * f : ℝ) : ℂ))
        = ((-turns f x : ℝ) : ℂ) * Complex.I := by
      unfold turns lightSpeed
      push_cast
      ring
    unfold phasor
    rw [e, Complex.exp_mul_I, ← Complex.ofReal_cos, ← Complex.ofReal_sin, Real.cos_neg, Real.sin_neg]
    apply Complex.ext <;>
      simp only [Complex.add_re, Complex.add_im, Complex.mul_re, Complex.mul_im, Complex.ofReal_re,
        Complex.ofReal_im, Complex.I_re, Complex.I_im] <;> ring
  have e : turns f a = turns f b + turns f (a - b) := by unfold turns; ring
  rw [h, wave, wave, e, Real.cos_add, Real.sin_add]
  apply Complex.ext <;> simp <;> ring

theorem wave_zero (f : ℝ) : wave f 0 = 1 := by
  unfold wave turns
  apply Complex.ext <;> simp

theorem wave_ne_zero (f w : ℝ) : wave f w ≠ 0 := by
  intro h
  have h1 := phasor_wave 0 w f
  rw [h, zero_mul, wave_zero] at h1
  exact zero_ne_one h1

theorem phasor_ne_zero (x f : ℝ) : phasor x f ≠ 0 := by
  intro h
  have h1 := phasor_wave x 0 f
  rw [sub_zero, h, mul_zero] at h1
  exact wave_ne_zero f x h1.symm

/-- The factor of a path has modulus one. -/
theorem wave_normSq (f w : ℝ) : Complex.normSq (wave f w) = 1 := by
  have := Real.sin_sq_add_cos_sq (turns f w)
  simp only [wave, Complex.normSq_mk]
  linear_combination this

/-! ## Signals -/

/-- The visibilities of row `i`. -/
def RowData (o : Obj) (i : Nat) (row : List (List ℂ)) : Prop :=
  ∃ d, o.data = some d ∧ d[i]? = some row

/-- The row is turned by the change of the path. -/
theorem signal_turned {o o' : Obj} {i : Nat} {a b : ℝ} (hf : o'.freqs = o.freqs) (hb : Path o i b)
    (ha : Path o' i a)
    (hr : ∀ row', RowData o' i row' ↔ ∃ row, RowData o i row ∧ row' = turn o.freqs (a - b) row)
    (j p : Nat) (s : ℂ) : Signal o i j p s ↔ Signal o' i j p s := by
  constructor
  · rintro ⟨w, f, z, h1, h2, ⟨d, row, chan, h3, h4, h5, h6⟩, h7⟩
    obtain rfl := path_unique h1 hb
    obtain ⟨d', h8, h9⟩ := (hr _).2 ⟨row, ⟨d, h3, h4⟩, rfl⟩
    refine ⟨a, f, z * phasor (a - w) f, ha, by rw [hf]; exact h2,
      ⟨d', _, chan.map (· * phasor (a - w) f), h8, h9, ?_, ?_⟩, ?_⟩
    · unfold turn
      rw [List.getElem?_zipWith, h2, h5]
    · rw [List.getElem?_map, h6]; rfl
    · rw [h7, mul_assoc, phasor_wave]
  · rintro ⟨w, f, z, h1, h2, ⟨d, row, chan, h3, h4, h5, h6⟩, h7⟩
    obtain rfl := path_unique h1 ha
    obtain ⟨row0, ⟨d0, h8, h9⟩, rfl⟩ := (hr _).1 ⟨d, h3, h4⟩
    rw [hf] at h2
    unfold turn at h5
    rw [List.getElem?_zipWith, h2] at h5
    cases h10 : row0[j]? with
    | none => rw [h10] at h5; simp at h5
    | some chan0 =>
      rw [h10] at h5
      simp only [Option.some.injEq] at h5
      rw [← h5, List.getElem?_map] at h6
      cases h11 : chan0[p]? with
      | none => rw [h11] at h6; simp at h6
      | some z0 =>
        rw [h11] at h6
        simp only [Option.map_some, Option.some.injEq] at h6
        refine ⟨b, f, z0, hb, h2, ⟨d0, row0, chan0, h8, h9, h10, h11⟩, ?_⟩
        rw [← h6, ← phasor_wave w b f, ← mul_assoc] at h7
        exact mul_right_cancel₀ (phasor_ne_zero _ _) h7

/-- The row and its path are unchanged. -/
theorem signal_same {o o' : Obj} {i : Nat} (hf : o'.freqs = o.freqs)
    (hp : ∀ w, Path o i w ↔ Path o' i w) (hr : ∀ row, RowData o' i row ↔ RowData o i row)
    (j p : Nat) (s : ℂ) : Signal o i j p s ↔ Signal o' i j p s := by
  have hv : ∀ z, Vis o i j p z ↔ Vis o' i j p z := by
    intro z
    constructor
    · rintro ⟨d, row, chan, h1, h2, h3, h4⟩
      obtain ⟨d', h5, h6⟩ := (hr row).2 ⟨d, h1, h2⟩
      exact ⟨d', row, chan, h5, h6, h3, h4⟩
    · rintro ⟨d, row, chan, h1, h2, h3, h4⟩
      obtain ⟨d', h5, h6⟩ := (hr row).1 ⟨d, h1, h2⟩
      exact ⟨d', row, chan, h5, h6, h3, h4⟩
  unfold Signal
  simp only [hp, hf, hv]

end Verif.Phase
