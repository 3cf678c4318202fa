import Verif.Resample.Model
import Mathlib.Algebra.BigOperators.Group.List.Lemmas
import Mathlib.Tactic.Ring
import Mathlib.Tactic.FieldSimp
import Mathlib.Tactic.Linarith
import Mathlib.Tactic.Positivity

/-! # Upsampling: every long row becomes equal pieces that tile its interval -/
set_option linter.unusedSectionVars false

namespace Verif.Resample

variable {K V ι : Type} [Field K] [LinearOrder K] [IsStrictOrderedRing K]

/-! ### Specification -/

/-- The rows, in order, cover the interval from `a` to `b` (in seconds) without gaps or overlaps. -/
def Tiles : K → K → List (Row K V ι) → Prop
  | a, b, [] => a = b
  | a, b, r :: l => r.time * 86400 - r.integ / 2 = a ∧ Tiles (r.time * 86400 + r.integ / 2) b l

/-- The rows `l` are row `r` cut into equal pieces. -/
structure Cut [AddCommGroup V] (summing : Bool) (r : Row K V ι) (l : List (Row K V ι)) : Prop where
  nonempty : l ≠ []
  tiles : Tiles (r.time * 86400 - r.integ / 2) (r.time * 86400 + r.integ / 2) l
  equal : ∀ p ∈ l, ∀ q ∈ l, p.integ = q.integ
  labels : ∀ p ∈ l, p.bl = r.bl ∧ p.pc = r.pc ∧ p.flag = r.flag ∧ p.nsample = r.nsample
  data_mean : summing = false → ∀ p ∈ l, p.data = r.data
  data_sum : summing = true → (∀ c, (l.map (fun p => p.data c)).sum = r.data c) ∧ ∀ p ∈ l, ∀ q ∈ l, p.data = q.data

/-! ### Proofs -/

theorem Tiles.append {a b c : K} {l m : List (Row K V ι)} (h : Tiles a b l) (k : Tiles b c m) : Tiles a c (l ++ m) := by
  induction l generalizing a with
  | nil => simp only [Tiles] at h; subst h; exact k
  | cons r l ih => exact ⟨h.1, ih h.2⟩

theorem Tiles.integ {a b : K} {l : List (Row K V ι)} (h : Tiles a b l) : (l.map Row.integ).sum = b - a := by
  induction l generalizing a with
  | nil => simp only [Tiles] at h; simp [h]
  | cons r l ih =>
    have := ih h.2
    have h1 := h.1
    simp only [List.map_cons, List.sum_cons, this]
    linarith

section
variable [FloorRing K] [AddCommGroup V] [Module K V]

theorem pieceTime_eq (t0 dt : K) (n ii : Nat) :
    pieceTime t0 dt n ii * 86400 = t0 * 86400 + dt * ((ii : K) - ((n : K) - 1) / 2) := by
  unfold pieceTime
  have h : ((n : Nat) : K) = 2 * ((n / 2 : Nat) : K) + ((n % 2 : Nat) : K) := by
    have := Nat.div_add_mod n 2
    calc ((n : Nat) : K) = ((2 * (n / 2) + n % 2 : Nat) : K) := by rw [this]
      _ = _ := by push_cast; ring
  simp only
  field_simp
  rw [h]
  ring

theorem tiles_range (t : Tols K) (maxInt : K) (summing : Bool) (r : Row K V ι) (m : Nat) :
    Tiles (r.time * 86400 - r.integ / (nNew t maxInt r.integ) * ((nNew t maxInt r.integ : K) / 2))
      (r.time * 86400 - r.integ / (nNew t maxInt r.integ) * ((nNew t maxInt r.integ : K) / 2) + r.integ / (nNew t maxInt r.integ) * m)
      ((List.range m).map (fun ii => ({ r with
        data := fun c => if summing then ((nNew t maxInt r.integ : Nat) : K)⁻¹ • r.data c else r.data c
        time := pieceTime r.time (r.integ / (nNew t maxInt r.integ)) (nNew t maxInt r.integ) ii
        integ := r.integ / (nNew t maxInt r.integ) } : Row K V ι))) := by
  induction m with
  | zero => simp [Tiles]
  | succ m ih =>
    rw [List.range_succ, List.map_append]
    refine ih.append ?_
    simp only [List.map_cons, List.map_nil, Tiles, pieceTime_eq]
    constructor
    · ring
    · push_cast; ring

theorem one_lt_ratio {t : Tols K} {maxInt : K} {r : Row K V ι} (hm : 0 < maxInt) (hl : tooLong t maxInt r = true) :
    1 < r.integ / maxInt := by
  simp only [tooLong, Bool.and_eq_true, decide_eq_true_eq] at hl
  rw [lt_div_iff₀ hm]
  simpa using hl.1

theorem nNew_pos {t : Tols K} {maxInt : K} {r : Row K V ι} (hm : 0 < maxInt) (hl : tooLong t maxInt r = true) :
    0 < nNew t maxInt r.integ := by
  have h1 := one_lt_ratio hm hl
  have hf : 1 ≤ ⌊r.integ / maxInt⌋ := Int.le_floor.2 (by simpa using h1.le)
  have hc : ⌊r.integ / maxInt⌋ ≤ ⌈r.integ / maxInt⌉ := Int.floor_le_ceil _
  unfold nNew
  simp only
  split <;> omega

theorem cut_pieces {t : Tols K} {maxInt : K} (summing : Bool) {r : Row K V ι} (hm : 0 < maxInt) (hl : tooLong t maxInt r = true) :
    Cut summing r (pieces t maxInt summing r) := by
  have hn := nNew_pos hm hl
  have hn' : ((nNew t maxInt r.integ : Nat) : K) ≠ 0 := by exact_mod_cast hn.ne'
  refine ⟨?_, ?_, ?_, ?_, ?_, ?_⟩
  · simp only [pieces, ne_eq, List.map_eq_nil_iff, List.range_eq_nil]
    omega
  · have h := tiles_range t maxInt summing r (nNew t maxInt r.integ)
    have e1 : r.integ / (nNew t maxInt r.integ : K) * ((nNew t maxInt r.integ : K) / 2) = r.integ / 2 := by field_simp
    have e2 : r.integ / (nNew t maxInt r.integ : K) * (nNew t maxInt r.integ : K) = r.integ := by field_simp
    rw [e1, e2] at h
    have e3 : r.time * 86400 - r.integ / 2 + r.integ = r.time * 86400 + r.integ / 2 := by ring
    rw [e3] at h
    exact h
  · intro p hp q hq
    simp only [pieces, List.mem_map] at hp hq
    obtain ⟨_, _, rfl⟩ := hp
    obtain ⟨_, _, rfl⟩ := hq
    rfl
  · intro p hp
    simp only [pieces, List.mem_map] at hp
    obtain ⟨_, _, rfl⟩ := hp
    exact ⟨rfl, rfl, rfl, rfl⟩
  · rintro rfl p hp
    simp only [pieces, List.mem_map] at hp
    obtain ⟨_, _, rfl⟩ := hp
    rfl
  · rintro rfl
    constructor
    · intro c
      simp only [pieces, List.map_map, Function.comp_def, if_true]
      rw [List.map_const', List.sum_replicate, List.length_range, ← Nat.cast_smul_eq_nsmul K, smul_smul,
        mul_inv_cancel₀ hn', one_smul]
    · intro p hp q hq
      simp only [pieces, List.mem_map] at hp hq
      obtain ⟨_, _, rfl⟩ := hp
      obtain ⟨_, _, rfl⟩ := hq
      rfl

/-- A piece is no longer than asked for, up to the tolerance used in telling whole numbers. -/
theorem piece_le {t : Tols K} {maxInt : K} {summing : Bool} {r : Row K V ι} (hm : 0 < maxInt) (hr : 0 ≤ t.r) (ha : 0 ≤ t.a)
    (hl : tooLong t maxInt r = true) : ∀ p ∈ pieces t maxInt summing r, p.integ ≤ maxInt * (1 + t.r + t.a) := by
  intro p hp
  have hn := nNew_pos hm hl
  simp only [pieces, List.mem_map] at hp
  obtain ⟨_, _, rfl⟩ := hp
  have hn' : (0 : K) < (nNew t maxInt r.integ : Nat) := by exact_mod_cast hn
  simp only
  rw [div_le_iff₀ hn']
  have hx := one_lt_ratio hm hl
  have hf : 1 ≤ ⌊r.integ / maxInt⌋ := Int.le_floor.2 (by simpa using hx.le)
  have key : r.integ / maxInt ≤ (1 + t.r + t.a) * (nNew t maxInt r.integ : Nat) := by
    unfold nNew
    simp only
    split
    · rename_i hc
      simp only [isclose, decide_eq_true_eq] at hc
      have hcast : ((⌊r.integ / maxInt⌋.toNat : Nat) : K) = (⌊r.integ / maxInt⌋ : K) := by
        have : ((⌊r.integ / maxInt⌋.toNat : Nat) : Int) = ⌊r.integ / maxInt⌋ := Int.toNat_of_nonneg (by omega)
        exact_mod_cast this
      rw [hcast]
      have hfK : (1 : K) ≤ (⌊r.integ / maxInt⌋ : K) := by exact_mod_cast hf
      have habs : |(⌊r.integ / maxInt⌋ : K)| = (⌊r.integ / maxInt⌋ : K) := abs_of_nonneg (by linarith)
      rw [habs] at hc
      have h2 := (abs_le.1 hc).2
      nlinarith
    · have hcast : ((⌈r.integ / maxInt⌉.toNat : Nat) : K) = (⌈r.integ / maxInt⌉ : K) := by
        have h0 : ⌊r.integ / maxInt⌋ ≤ ⌈r.integ / maxInt⌉ := Int.floor_le_ceil _
        have : ((⌈r.integ / maxInt⌉.toNat : Nat) : Int) = ⌈r.integ / maxInt⌉ := Int.toNat_of_nonneg (by omega)
        exact_mod_cast this
      rw [hcast]
      have h3 := Int.le_ceil (r.integ / maxInt)
      nlinarith
  rw [div_le_iff₀ hm] at key
  linarith [key]

/-- A row that is over the limit, but within the tolerance of it. -/
def Borderline (t : Tols K) (maxInt : K) (r : Row K V ι) : Prop := maxInt < r.integ ∧ tooLong t maxInt r = false

instance (t : Tols K) (maxInt : K) (r : Row K V ι) : Decidable (Borderline t maxInt r) := inferInstanceAs (Decidable (_ ∧ _))

theorem upsample_some {t : Tols K} {maxInt : K} {summing : Bool} {rows out : List (Row K V ι)}
    (h : upsample t maxInt summing rows = some out) :
    ((∀ r ∈ rows, tooLong t maxInt r = false) ∧ out = rows) ∨
      ((∃ r ∈ rows, tooLong t maxInt r = true) ∧ out = rows.filter (fun r => decide (r.integ ≤ maxInt)) ++
        (rows.filter (tooLong t maxInt)).flatMap (pieces t maxInt summing)) := by
  unfold upsample at h
  split at h
  · simp at h
  · simp only at h
    split at h
    · rename_i he
      simp only [Option.some.injEq] at h
      rw [List.isEmpty_iff, List.filter_eq_nil_iff] at he
      exact Or.inl ⟨fun r hr => by simpa using he r hr, h.symm⟩
    · rename_i he
      simp only [Option.some.injEq] at h
      rw [List.isEmpty_iff, List.filter_eq_nil_iff] at he
      push Not at he
      exact Or.inr ⟨he, h.symm⟩

/-- Splitting a list in two by a test and replacing the second part. -/
theorem filter_flatMap_perm {α : Type} (p q : α → Bool) (f : α → List α) (l : List α) (h : ∀ x ∈ l, p x = !q x) :
    (l.filter p ++ (l.filter q).flatMap f).Perm (l.flatMap (fun x => if q x then f x else [x])) := by
  induction l with
  | nil => simp
  | cons x l ih =>
    have ih := ih (fun y hy => h y (List.mem_cons_of_mem _ hy))
    have hx := h x (by simp)
    cases hq : q x with
    | false =>
      rw [hq] at hx
      simp only [List.filter_cons, hx, hq, Bool.not_false, if_true, List.flatMap_cons, if_false, List.cons_append, List.nil_append,
        Bool.false_eq_true]
      exact List.Perm.cons _ ih
    | true =>
      rw [hq] at hx
      simp only [List.filter_cons, hx, hq, Bool.not_true, if_true, List.flatMap_cons, if_false, Bool.false_eq_true]
      refine (List.Perm.trans ?_ (List.Perm.append_left _ ih))
      rw [← List.append_assoc, ← List.append_assoc]
      exact List.Perm.append_right _ List.perm_append_comm

/-- **C37.** If no row is over the limit but within the tolerance, upsampling replaces every row that is too long by equal
pieces that tile its interval, and keeps all the others as they are. -/
theorem upsample_cuts_partial {t : Tols K} {maxInt : K} {summing : Bool} {rows out : List (Row K V ι)} (hm : 0 < maxInt)
    (hb : ∀ r ∈ rows, ¬ Borderline t maxInt r) (h : upsample t maxInt summing rows = some out) :
    ∃ f : Row K V ι → List (Row K V ι), out.Perm (rows.flatMap f) ∧
      ∀ r ∈ rows, (r.integ ≤ maxInt ∧ f r = [r]) ∨ (maxInt < r.integ ∧ Cut summing r (f r)) := by
  refine ⟨fun r => if tooLong t maxInt r then pieces t maxInt summing r else [r], ?_, ?_⟩
  · rcases upsample_some h with ⟨h1, rfl⟩ | ⟨_, rfl⟩
    · have : out.flatMap (fun r => if tooLong t maxInt r then pieces t maxInt summing r else [r]) = out.flatMap (fun r => [r]) := by
        apply List.flatMap_congr
        intro r hr
        simp [h1 r hr]
      rw [this, List.flatMap_singleton']
    · apply filter_flatMap_perm
      intro r hr
      have := hb r hr
      cases hq : tooLong t maxInt r with
      | false => simpa [Borderline, hq] using this
      | true =>
        simp only [tooLong, Bool.and_eq_true, decide_eq_true_eq] at hq
        simpa using hq.1
  · intro r hr
    have := hb r hr
    cases hq : tooLong t maxInt r with
    | false => exact Or.inl ⟨by simpa [Borderline, hq] using this, by simp [hq]⟩
    | true =>
      refine Or.inr ⟨?_, by simpa [hq] using cut_pieces summing hm hq⟩
      simp only [tooLong, Bool.and_eq_true, decide_eq_true_eq] at hq
      exact hq.1

/-- No row of the result is longer than asked for, up to the tolerances. -/
theorem upsample_short {t : Tols K} {maxInt : K} {summing : Bool} {rows out : List (Row K V ι)} (hm : 0 < maxInt) (hr : 0 ≤ t.r)
    (ha : 0 ≤ t.a) (hri : 0 ≤ t.rInt) (hai : 0 ≤ t.aInt) (h : upsample t maxInt summing rows = some out) :
    ∀ p ∈ out, p.integ ≤ maxInt * (1 + t.r + t.a) ∨ p.integ ≤ maxInt * (1 + t.rInt) + t.aInt := by
  intro p hp
  rcases upsample_some h with ⟨h1, rfl⟩ | ⟨_, rfl⟩
  · right
    have := h1 p hp
    by_cases hle : p.integ ≤ maxInt
    · nlinarith
    · push Not at hle
      simp only [tooLong, hle, decide_true, Bool.true_and, Bool.not_eq_false', isclose, decide_eq_true_eq] at this
      have h2 := (abs_le.1 this).2
      rw [abs_of_pos hm] at h2
      linarith
  · left
    rw [List.mem_append] at hp
    rcases hp with hp | hp
    · have := of_decide_eq_true (List.mem_filter.1 hp).2
      nlinarith
    · obtain ⟨r, hr', hp⟩ := List.mem_flatMap.1 hp
      exact piece_le hm hr ha (List.mem_filter.1 hr').2 p hp

theorem sum_flatMap {α : Type} (f : α → List α) (g : α → K) (l : List α) (h : ∀ x ∈ l, ((f x).map g).sum = g x) :
    ((l.flatMap f).map g).sum = (l.map g).sum := by
  induction l with
  | nil => rfl
  | cons x l ih =>
    simp only [List.flatMap_cons, List.map_append, List.sum_append, List.map_cons, List.sum_cons]
    rw [h x (by simp), ih (fun y hy => h y (List.mem_cons_of_mem _ hy))]

theorem sum_mul_left {α : Type} (x : K) (g : α → K) (l : List α) : (l.map (fun p => x * g p)).sum = x * (l.map g).sum := by
  induction l with
  | nil => simp
  | cons a l ih => simp only [List.map_cons, List.sum_cons, ih]; ring

theorem filter_of_all {α : Type} (p : α → Bool) (b : Bool) (l : List α) (h : ∀ x ∈ l, p x = b) : l.filter p = if b then l else [] := by
  cases b
  · simpa using h
  · simpa using h

/-- **C37.** The time observed on every baseline, and the time times the number of samples of each cell, stay the same. -/
theorem upsample_conserves_partial {t : Tols K} {maxInt : K} {summing : Bool} {rows out : List (Row K V ι)} (hm : 0 < maxInt)
    (hb : ∀ r ∈ rows, ¬ Borderline t maxInt r) (h : upsample t maxInt summing rows = some out) (b : Int) (c : ι) :
    ((out.filter (fun r => decide (r.bl = b))).map Row.integ).sum = ((rows.filter (fun r => decide (r.bl = b))).map Row.integ).sum ∧
    ((out.filter (fun r => decide (r.bl = b))).map (fun r => r.nsample c * r.integ)).sum =
      ((rows.filter (fun r => decide (r.bl = b))).map (fun r => r.nsample c * r.integ)).sum := by
  obtain ⟨f, hp, hf⟩ := upsample_cuts_partial hm hb h
  have hp' := hp.filter (fun r => decide (r.bl = b))
  have hfl : (rows.flatMap f).filter (fun r => decide (r.bl = b)) = (rows.filter (fun r => decide (r.bl = b))).flatMap f := by
    clear hp hp' h hb
    induction rows with
    | nil => rfl
    | cons r rows ih =>
      have hr := hf r (by simp)
      have hall : ∀ p ∈ f r, decide (p.bl = b) = decide (r.bl = b) := by
        rcases hr with ⟨_, h2⟩ | ⟨_, h2⟩
        · rw [h2]; simp
        · intro p hp
          rw [(h2.labels p hp).1]
      rw [List.flatMap_cons, List.filter_append, filter_of_all _ _ _ hall, ih (fun x hx => hf x (List.mem_cons_of_mem _ hx)),
        List.filter_cons]
      split <;> simp
  rw [hfl] at hp'
  have hint : ∀ r ∈ rows, ((f r).map Row.integ).sum = r.integ := by
    intro r hr
    rcases hf r hr with ⟨_, h2⟩ | ⟨_, h2⟩
    · rw [h2]; simp
    · rw [h2.tiles.integ]; ring
  have hsub : ∀ r ∈ rows.filter (fun r => decide (r.bl = b)), r ∈ rows := fun r hr => (List.mem_filter.1 hr).1
  constructor
  · rw [(hp'.map Row.integ).sum_eq, sum_flatMap f Row.integ _ (fun r hr => hint r (hsub r hr))]
  · rw [(hp'.map (fun r => r.nsample c * r.integ)).sum_eq, sum_flatMap f (fun r => r.nsample c * r.integ)]
    intro r hr
    have hi := hint r (hsub r hr)
    have hns : ∀ p ∈ f r, p.nsample c * p.integ = r.nsample c * p.integ := by
      rcases hf r (hsub r hr) with ⟨_, h2⟩ | ⟨_, h2⟩
      · rw [h2]; simp
      · intro p hp
        rw [(h2.labels p hp).2.2.2]
    rw [List.map_congr_left hns, sum_mul_left, hi]

/-- **C37.** When some row is too long, the rows over the limit but within the tolerance of it are lost: the result is made of
the other rows only. -/
theorem upsample_loses {t : Tols K} {maxInt : K} {summing : Bool} {rows out : List (Row K V ι)} (hm : 0 < maxInt)
    (hl : ∃ r ∈ rows, tooLong t maxInt r = true) (h : upsample t maxInt summing rows = some out) :
    ∃ f : Row K V ι → List (Row K V ι), out.Perm ((rows.filter (fun r => decide (¬ Borderline t maxInt r))).flatMap f) ∧
      ∀ r ∈ rows, ¬ Borderline t maxInt r →
        (r.integ ≤ maxInt ∧ f r = [r]) ∨ (maxInt < r.integ ∧ Cut summing r (f r)) := by
  rcases upsample_some h with ⟨h1, _⟩ | ⟨_, rfl⟩
  · obtain ⟨r, hr, h2⟩ := hl
    simp [h1 r hr] at h2
  · refine ⟨fun r => if tooLong t maxInt r then pieces t maxInt summing r else [r], ?_, ?_⟩
    · have e1 : rows.filter (fun r => decide (r.integ ≤ maxInt)) =
          (rows.filter (fun r => decide (¬ Borderline t maxInt r))).filter (fun r => decide (r.integ ≤ maxInt)) := by
        rw [List.filter_filter]
        apply List.filter_congr
        intro r _
        by_cases hle : r.integ ≤ maxInt
        · simp [hle, Borderline]
        · simp [hle]
      have e2 : rows.filter (tooLong t maxInt) =
          (rows.filter (fun r => decide (¬ Borderline t maxInt r))).filter (tooLong t maxInt) := by
        rw [List.filter_filter]
        apply List.filter_congr
        intro r _
        by_cases hle : tooLong t maxInt r = true
        · simp [hle, Borderline]
        · simp [hle]
      rw [e1, e2]
      apply filter_flatMap_perm
      intro r hr
      have hb := of_decide_eq_true (List.mem_filter.1 hr).2
      cases hq : tooLong t maxInt r with
      | false => simpa [Borderline, hq] using hb
      | true =>
        simp only [tooLong, Bool.and_eq_true, decide_eq_true_eq] at hq
        simpa using hq.1
    · intro r _ hb
      cases hq : tooLong t maxInt r with
      | false => exact Or.inl ⟨by simpa [Borderline, hq] using hb, by simp [hq]⟩
      | true =>
        refine Or.inr ⟨?_, by simpa [hq] using cut_pieces summing hm hq⟩
        simp only [tooLong, Bool.and_eq_true, decide_eq_true_eq] at hq
        exact hq.1

/-- Upsampling is refused exactly if the limit is less than a hundredth of the shortest integration. -/
theorem extremum_min_iff (x : K) (l : List K) (y : K) : x < extremum min (y :: l) ↔ ∀ z ∈ y :: l, x < z := by
  unfold extremum
  simp only
  induction l generalizing y with
  | nil => simp
  | cons a l ih =>
    rw [List.foldl_cons, ih]
    simp only [List.mem_cons, forall_eq_or_imp, lt_min_iff]
    tauto

theorem upsample_refuses (t : Tols K) (maxInt : K) (summing : Bool) {rows : List (Row K V ι)} (hne : rows ≠ []) :
    upsample t maxInt summing rows = none ↔ ∀ r ∈ rows, 100 * maxInt < r.integ := by
  have hx : (maxInt < 1 / 100 * extremum min (rows.map Row.integ)) ↔ ∀ r ∈ rows, 100 * maxInt < r.integ := by
    have h1 : (maxInt < 1 / 100 * extremum min (rows.map Row.integ)) ↔ 100 * maxInt < extremum min (rows.map Row.integ) := by
      constructor <;> intro h <;> linarith
    rw [h1]
    cases rows with
    | nil => exact absurd rfl hne
    | cons r rows =>
      rw [List.map_cons, extremum_min_iff]
      simp [List.mem_map]
  rw [← hx]
  unfold upsample
  split
  · rename_i h
    exact ⟨fun _ => h, fun _ => rfl⟩
  · rename_i h
    simp only [h, iff_false]
    split <;> simp

end

end Verif.Resample
