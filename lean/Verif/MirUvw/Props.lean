import Verif.MirUvw.Model
import Mathlib.Algebra.Order.Field.Basic
import Mathlib.Tactic.FieldSimp
import Mathlib.Tactic.Ring
import Mathlib.Tactic.Linarith

/-! # C227: baseline coordinates of old MIR files -/
set_option linter.unusedSectionVars false

namespace Verif.MirUvw

variable {K : Type} [Field K] [LinearOrder K] [IsStrictOrderedRing K]

/-! ### Specification -/

/-- Lengths grow with vectors. -/
def Homogeneous (len : K → K → K → K) : Prop := ∀ c u v w, 0 < c → len (c * u) (c * v) (c * w) = c * len u v w

/-- The coordinates of a row are `c` times coordinates as long as the distance of its antennas, which are two. -/
def Times (len : K → K → K → K) (c : K) (r : Row K) : Prop :=
  0 < r.dist ∧ ∃ u v w, len u v w = r.dist ∧ r.u = c * u ∧ r.v = c * v ∧ r.w = c * w

/-- More than half of the rows of a receiver and sideband are of one kind. -/
def Most (rows : List (Row K)) (rx sb : Nat) (P : Row K → Prop) : Prop :=
  ∃ good : List (Row K), good.Sublist rows ∧ (∀ r ∈ good, r.rx = rx ∧ r.sb = sb ∧ P r) ∧
    rows.countP (fun r => decide (r.rx = rx) && decide (r.sb = sb)) < 2 * good.length

/-- A row with given coordinates, the rest as before. -/
def Has (out : Option (Cell K)) (r : Row K) (u v w : Option K) : Prop :=
  ∃ x, out = some x ∧ x.rx = r.rx ∧ x.sb = r.sb ∧ x.u = u ∧ x.v = v ∧ x.w = w

/-! ### Medians -/

theorem sorted_middle {s : List K} (hs : s.Pairwise (· ≤ ·)) {r : K} (hc : s.length < 2 * s.count r) {k : Nat}
    (h1 : (s.length - 1) / 2 ≤ k) (h2 : k ≤ s.length / 2) (hk : k < s.length) : s[k] = r := by
  have hsplit := List.take_append_drop k s
  have hget := List.pairwise_iff_getElem.1 hs
  rcases lt_trichotomy s[k] r with h | h | h
  · exfalso
    have h0 : (s.take (k + 1)).count r = 0 := by
      rw [List.count_eq_zero]
      intro hm
      obtain ⟨i, hi, he⟩ := List.getElem_of_mem hm
      rw [List.getElem_take] at he
      rw [List.length_take] at hi
      have hik : i ≤ k := by omega
      rcases Nat.lt_or_ge i k with hlt | hge
      · have := hget i k (by omega) hk hlt
        rw [he] at this
        exact absurd h (not_lt.2 this)
      · have : i = k := by omega
        subst this
        rw [he] at h
        exact lt_irrefl _ h
    have h3 : s.count r = (s.drop (k + 1)).count r := by
      conv_lhs => rw [← List.take_append_drop (k + 1) s]
      rw [List.count_append, h0, Nat.zero_add]
    have h4 := List.count_le_length (a := r) (l := s.drop (k + 1))
    rw [List.length_drop] at h4
    omega
  · exact h
  · exfalso
    have h0 : (s.drop k).count r = 0 := by
      rw [List.count_eq_zero]
      intro hm
      obtain ⟨i, hi, he⟩ := List.getElem_of_mem hm
      rw [List.getElem_drop] at he
      rw [List.length_drop] at hi
      rcases Nat.eq_zero_or_pos i with h' | hpos
      · subst h'
        simp only [Nat.add_zero] at he
        rw [he] at h
        exact lt_irrefl _ h
      · have := hget k (k + i) hk (by omega) (by omega)
        rw [he] at this
        exact absurd h (not_lt.2 this)
    have h3 : s.count r = (s.take k).count r := by
      conv_lhs => rw [← List.take_append_drop k s]
      rw [List.count_append, h0, Nat.add_zero]
    have h4 := List.count_le_length (a := r) (l := s.take k)
    rw [List.length_take] at h4
    omega

/-- The median is the value that more than half of the entries have. -/
theorem median_majority {l : List K} {r : K} (hc : l.length < 2 * l.count r) : median l = r := by
  unfold median
  dsimp only
  have hp : (l.insertionSort (· ≤ ·)).Perm l := List.perm_insertionSort _ _
  have hs : (l.insertionSort (· ≤ ·)).Pairwise (· ≤ ·) := List.pairwise_insertionSort _ _
  have hc' : (l.insertionSort (· ≤ ·)).length < 2 * (l.insertionSort (· ≤ ·)).count r := by
    rw [hp.length_eq, hp.count_eq]
    exact hc
  generalize l.insertionSort (· ≤ ·) = s at hs hc'
  have hpos : 0 < s.length := by
    rcases Nat.eq_zero_or_pos s.length with h | h
    · rw [List.length_eq_zero_iff] at h
      subst h
      simp at hc'
    · exact h
  have a1 : (s.length - 1) / 2 < s.length := by omega
  have a2 : s.length / 2 < s.length := by omega
  rw [List.getElem?_eq_getElem a1, List.getElem?_eq_getElem a2, Option.getD_some, Option.getD_some,
    sorted_middle hs hc' (le_refl _) (by omega) a1, sorted_middle hs hc' (by omega) (le_refl _) a2]
  ring

/-! ### Groups -/

def keyOf (r : Cell K) : Nat × Nat := (r.rx, r.sb)

theorem inGroup_iff {g : Nat × Nat} {r : Cell K} : inGroup g r = true ↔ keyOf r = g := by
  unfold inGroup keyOf
  rw [Bool.and_eq_true, decide_eq_true_eq, decide_eq_true_eq, Prod.ext_iff]

theorem scale_eq (rows : List (Cell K)) (g : Nat × Nat) :
    scale rows g = rows.map fun r => if keyOf r = g then scaled (factor g rows) r else r := by
  unfold scale
  split
  · exact List.map_congr_left fun r _ => by simp only [inGroup_iff]
  · rename_i h
    have hn : ∀ r ∈ rows, ¬ keyOf r = g := by
      intro r hr hk
      exact h (List.any_eq_true.2 ⟨r, hr, inGroup_iff.2 hk⟩)
    conv_lhs => rw [← List.map_id rows]
    exact List.map_congr_left fun r hr => by rw [if_neg (hn r hr)]; rfl

theorem factor_scale (rows : List (Cell K)) {g k : Nat × Nat} (h : k ≠ g) : factor k (scale rows g) = factor k rows := by
  have key : (scale rows g).filter (inGroup k) = rows.filter (inGroup k) := ?_
  · unfold factor
    rw [key]
  rw [scale_eq]
  generalize factor g rows = f
  induction rows with
  | nil => rfl
  | cons r rows ih =>
    rw [List.map_cons]
    by_cases hr : keyOf r = g
    · rw [if_pos hr]
      have h1 : ¬ inGroup k (scaled f r) = true := by
        rw [inGroup_iff]
        exact fun he => h (he.symm.trans hr)
      have h2 : ¬ inGroup k r = true := by
        rw [inGroup_iff]
        exact fun he => h (he.symm.trans hr)
      rw [List.filter_cons_of_neg h1, List.filter_cons_of_neg h2, ih]
    · rw [if_neg hr]
      by_cases hk : inGroup k r = true
      · rw [List.filter_cons_of_pos hk, List.filter_cons_of_pos hk, ih]
      · rw [List.filter_cons_of_neg hk, List.filter_cons_of_neg hk, ih]

theorem foldl_scale : ∀ (gs : List (Nat × Nat)), gs.Nodup → ∀ (rows : List (Cell K)),
    gs.foldl scale rows = rows.map fun r => if keyOf r ∈ gs then scaled (factor (keyOf r) rows) r else r
  | [], _, rows => by simp
  | g :: gs, hn, rows => by
    rw [List.nodup_cons] at hn
    rw [List.foldl_cons, foldl_scale gs hn.2, scale_eq rows g, List.map_map]
    refine List.map_congr_left fun r _ => ?_
    rw [← scale_eq rows g]
    simp only [Function.comp]
    by_cases hr : keyOf r = g
    · have hk : keyOf (scaled (factor g rows) r) = g := hr
      rw [if_pos hr, hk, if_neg hn.1, if_pos (by rw [hr]; simp), hr]
    · rw [if_neg hr]
      by_cases hm : keyOf r ∈ gs
      · rw [if_pos hm, if_pos (by simp [hm]), factor_scale rows hr]
      · rw [if_neg hm, if_neg (by simp [hr, hm])]

/-! ### Theorems -/

theorem convert_get {len : K → K → K → K} {rows : List (Row K)} {out : List (Cell K)} (h : convert len rows = some out) {i : Nat}
    {r : Row K} (hi : rows[i]? = some r) :
    out[i]? = some (scaled (factor (r.rx, r.sb) (rows.map (measure len))) (measure len r)) := by
  unfold convert at h
  split at h
  · rename_i hall
    simp only [Option.some.injEq] at h
    subst h
    rw [foldl_scale _ (by decide), List.map_map, List.getElem?_map, hi]
    have hm := List.all_eq_true.1 hall r (List.mem_of_getElem? hi)
    simp only [Bool.and_eq_true, decide_eq_true_eq] at hm
    have hkey : keyOf (measure len r) = (r.rx, r.sb) := rfl
    have hin : (r.rx, r.sb) ∈ [((0 : Nat), (0 : Nat)), (0, 1), (1, 0), (1, 1)] := by
      obtain ⟨hs, hr⟩ := hm
      rcases hs with hs | hs <;> rcases hr with hr | hr <;> rw [hs, hr] <;> simp
    simp only [Option.map_some, Function.comp, hkey, if_pos hin]
  · simp at h

theorem mem_group {len : K → K → K → K} {rows : List (Row K)} {rx sb : Nat} {m : Cell K} :
    m ∈ (rows.map (measure len)).filter (inGroup (rx, sb)) ↔ ∃ x ∈ rows, x.rx = rx ∧ x.sb = sb ∧ m = measure len x := by
  rw [List.mem_filter, List.mem_map, inGroup_iff]
  constructor
  · rintro ⟨⟨x, hx, rfl⟩, hk⟩
    exact ⟨x, hx, congrArg Prod.fst hk, congrArg Prod.snd hk, rfl⟩
  · rintro ⟨x, hx, h1, h2, rfl⟩
    exact ⟨⟨x, hx, rfl⟩, Prod.ext h1 h2⟩

/-- **C227.** If the coordinates of more than half of the baselines of a receiver and sideband are `c` times what they are in
meters, and those of none are zero, all coordinates of this receiver and sideband are divided by `c`; nothing else is changed. -/
theorem divided_partial {len : K → K → K → K} (hh : Homogeneous len) {rows : List (Row K)} {out : List (Cell K)}
    (h : convert len rows = some out) {i : Nat} {r : Row K} (hi : rows[i]? = some r) {c : K} (hc : 0 < c)
    (hz : ∀ x ∈ rows, x.rx = r.rx → x.sb = r.sb → len x.u x.v x.w ≠ 0) (hm : Most rows r.rx r.sb (Times len c)) :
    Has out[i]? r (some (r.u / c)) (some (r.v / c)) (some (r.w / c)) := by
  have ho := convert_get h hi
  obtain ⟨good, hsub, hgood, hcount⟩ := hm
  have hfc : factor (r.rx, r.sb) (rows.map (measure len)) = some (1 / c) := by
    unfold factor
    dsimp only
    rw [if_neg]
    swap
    · intro ha
      obtain ⟨m, hm, h0⟩ := List.any_eq_true.1 ha
      obtain ⟨x, hx, h1, h2, rfl⟩ := mem_group.1 hm
      exact hz x hx h1 h2 (of_decide_eq_true h0)
    refine congrArg some (median_majority ?_)
    rw [List.length_map, ← List.countP_eq_length_filter, List.countP_map, List.count_eq_countP, List.countP_map,
      List.countP_filter, List.countP_map]
    refine lt_of_eq_of_lt ?_ (lt_of_lt_of_le hcount (Nat.mul_le_mul_left 2 ?_))
    · exact List.countP_congr fun x _ => Iff.rfl
    · refine le_trans (le_of_eq ?_) hsub.countP_le
      refine (List.countP_eq_length.2 ?_).symm
      intro x hx
      obtain ⟨h1, h2, hd, u, v, w, hl, e1, e2, e3⟩ := hgood x hx
      have hmeas : len x.u x.v x.w = c * x.dist := by rw [e1, e2, e3, hh c u v w hc, hl]
      have hd' := hd.ne'
      have hc' := hc.ne'
      simp only [Function.comp, measure, inGroup, h1, h2, hmeas, decide_true, Bool.and_true, beq_iff_eq]
      field_simp
  rw [hfc] at ho
  refine ⟨_, ho, rfl, rfl, ?_, ?_, ?_⟩ <;> simp [scaled, measure, times, div_eq_mul_inv]

/-- **C227.** So the coordinates of these baselines are in meters. -/
theorem meters_partial {len : K → K → K → K} (hh : Homogeneous len) {rows : List (Row K)} {out : List (Cell K)}
    (h : convert len rows = some out) {i : Nat} {r : Row K} (hi : rows[i]? = some r) {c u v w : K} (hc : 0 < c)
    (hz : ∀ x ∈ rows, x.rx = r.rx → x.sb = r.sb → len x.u x.v x.w ≠ 0) (hm : Most rows r.rx r.sb (Times len c))
    (hu : r.u = c * u) (hv : r.v = c * v) (hw : r.w = c * w) : Has out[i]? r (some u) (some v) (some w) := by
  have := divided_partial hh h hi hc hz hm
  rw [hu, hv, hw] at this
  simpa only [mul_div_cancel_left₀ _ hc.ne'] using this

/-- Coordinates that are in meters stay as they are. -/
theorem meters_kept {len : K → K → K → K} (hh : Homogeneous len) {rows : List (Row K)} {out : List (Cell K)}
    (h : convert len rows = some out) {i : Nat} {r : Row K} (hi : rows[i]? = some r)
    (hz : ∀ x ∈ rows, x.rx = r.rx → x.sb = r.sb → len x.u x.v x.w ≠ 0) (hm : Most rows r.rx r.sb (Times len 1)) :
    Has out[i]? r (some r.u) (some r.v) (some r.w) := by
  simpa only [div_one] using divided_partial hh h hi one_pos hz hm

/-- **C227.** It is an error exactly if a receiver or sideband is neither 0 nor 1. -/
theorem convert_error {len : K → K → K → K} {rows : List (Row K)} :
    convert len rows = none ↔ ∃ r ∈ rows, (r.sb ≠ 0 ∧ r.sb ≠ 1) ∨ (r.rx ≠ 0 ∧ r.rx ≠ 1) := by
  unfold convert
  split
  · rename_i h
    simp only [reduceCtorEq, false_iff, not_exists, not_and]
    intro r hr
    have := List.all_eq_true.1 h r hr
    simp only [Bool.and_eq_true, decide_eq_true_eq] at this
    omega
  · rename_i h
    simp only [true_iff]
    rw [List.all_eq_true] at h
    push Not at h
    obtain ⟨r, hr, h⟩ := h
    refine ⟨r, hr, ?_⟩
    simp only [ne_eq, Bool.and_eq_true, decide_eq_true_eq] at h
    omega

/-- **C227 is false** with a single baseline whose coordinates are zero (two antennas in one place): the coordinates of all baselines
of its receiver and sideband are lost.  (A length of zero with another distance is not modelled, so the distance is said to be zero.) -/
theorem zero_counterexample {len : K → K → K → K} {rows : List (Row K)} {out : List (Cell K)} (h : convert len rows = some out)
    {i : Nat} {r x : Row K} (hi : rows[i]? = some r) (hx : x ∈ rows) (h1 : x.rx = r.rx) (h2 : x.sb = r.sb)
    (h0 : len x.u x.v x.w = 0) (_ : x.dist = 0) : Has out[i]? r none none none := by
  have ho := convert_get h hi
  have hf : factor (r.rx, r.sb) (rows.map (measure len)) = none := by
    unfold factor
    dsimp only
    rw [if_pos]
    exact List.any_eq_true.2 ⟨measure len x, mem_group.2 ⟨x, hx, h1, h2, rfl⟩, decide_eq_true h0⟩
  rw [hf] at ho
  exact ⟨_, ho, rfl, rfl, rfl, rfl, rfl⟩

end Verif.MirUvw
