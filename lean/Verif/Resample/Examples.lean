import Verif.Resample.Down
import Mathlib.Algebra.Order.Ring.Rat
import Mathlib.Algebra.Field.Rat
import Mathlib.Data.Rat.Floor
import Mathlib.Algebra.Module.Rat

/-! # Resampling: cases that meet the hypotheses, and cases where the full claims are false -/
set_option linter.unusedSectionVars false

namespace Verif.Resample

/-- One millisecond for integration times (uvdata.py 271–277), the defaults of `np.isclose` otherwise. -/
def std : Tols ℚ := ⟨0, 1 / 1000, 1 / 100000, 1 / 100000000⟩

/-- A row with one cell. -/
def row (bl : Int) (time integ : ℚ) (pc : Int) (d : ℚ) (f : Bool) (n : ℚ) : Row ℚ ℚ Unit :=
  ⟨bl, time, integ, pc, fun _ => d, fun _ => f, fun _ => n⟩

structure Seen where
  bl : Int
  time : ℚ
  integ : ℚ
  pc : Int
  data : ℚ
  flag : Bool
  nsample : ℚ
deriving DecidableEq

/-- What can be seen of a row with one cell. -/
def sees (r : Row ℚ ℚ Unit) : Seen := ⟨r.bl, r.time, r.integ, r.pc, r.data (), r.flag (), r.nsample ()⟩

def seesAll : Except Err (List (Row ℚ ℚ Unit)) → Option (List Seen)
  | .ok l => some (l.map sees)
  | .error _ => none

/-! ### Upsampling -/

def two : List (Row ℚ ℚ Unit) := [row 1 0 (21 / 2) 0 6 false 1, row 2 1 30 0 6 false 1]

example : (upsample std 10 true two).map (List.map sees) =
    some [⟨1, -21 / 4 / 2 / 86400, 21 / 4, 0, 3, false, 1⟩, ⟨1, 21 / 4 / 2 / 86400, 21 / 4, 0, 3, false, 1⟩,
      ⟨2, 1 - 10 / 86400, 10, 0, 2, false, 1⟩, ⟨2, 1, 10, 0, 2, false, 1⟩, ⟨2, 1 + 10 / 86400, 10, 0, 2, false, 1⟩] := by
  decide +kernel

example : (∀ r ∈ two, ¬ Borderline std 10 r) ∧ (upsample std 10 false two).isSome = true := by decide +kernel

example : upsample std (1 / 10) false two = none ↔ ∀ r ∈ two, 100 * (1 / 10 : ℚ) < r.integ :=
  upsample_refuses _ _ _ (by simp [two])

def close : List (Row ℚ ℚ Unit) := [row 1 0 (10 + 1 / 2000) 0 6 false 1, row 2 1 30 0 6 false 1]

/-- **C37.** The full claim is false: a row half a millisecond over the limit is neither cut nor kept if another row is cut. -/
theorem upsample_counterexample :
    Borderline std 10 (row 1 0 (10 + 1 / 2000) 0 6 false 1) ∧
    (upsample std 10 false close).map (List.map sees) =
      some [⟨2, 1 - 10 / 86400, 10, 0, 6, false, 1⟩, ⟨2, 1, 10, 0, 6, false, 1⟩, ⟨2, 1 + 10 / 86400, 10, 0, 6, false, 1⟩] := by
  decide +kernel

/-! ### Downsampling -/

def five : List (Row ℚ ℚ Unit) :=
  [row 1 0 10 0 2 false 1, row 1 1 10 0 4 false 1, row 1 2 10 0 6 true 1, row 1 3 20 0 8 false 2, row 1 4 10 0 9 true 1,
    row 2 0 40 0 1 false 1]

example : seesAll (downsample std (.minInt 30) true false 1 id five) =
    some [⟨2, 0, 40, 0, 1, false, 1⟩, ⟨1, 1, 30, 0, 3, false, 2 / 3⟩, ⟨1, 10 / 3, 30, 0, 8, false, 4 / 3⟩] := by decide +kernel

example : seesAll (downsample std (.nTimes 2) false false 1 id five) =
    some [⟨1, 1 / 2, 20, 0, 3, false, 1⟩, ⟨1, 8 / 3, 30, 0, 8, false, 4 / 3⟩] := by decide +kernel

example : (∀ x ∈ five, 0 < x.integ) ∧ (∃ r ∈ five, tooShort std 30 r = true) := by decide +kernel

example : Countable std (.minInt 30) true five := trivial

/-- For the tolerances of `np.isclose` and not too many rows, the number of new rows is foreseen right. -/
theorem countable_std {n : Nat} (hn : 0 < n) (hn' : n ≤ 1000000) (keep : Bool) {rows : List (Row ℚ ℚ Unit)}
    (h : rows.length ≤ 98000) : Countable std (.nTimes n) keep rows := by
  refine ⟨hn, fun _ b => ?_⟩
  have h1 : (ofBl b rows).length ≤ 98000 := (List.length_filter_le _ _).trans h
  have h2 : ((ofBl b rows).length : ℚ) ≤ 98000 := by exact_mod_cast h1
  have h3 : (n : ℚ) ≤ 1000000 := by exact_mod_cast hn'
  simp only [std]
  linarith

/-- Two phase centers in one window are refused. -/
example : (match downsample std (.nTimes 2) true false 2 id [row 1 0 10 0 2 false 1, row 1 1 10 1 4 false 1] with
    | .error e => some e | .ok _ => none) = some .phaseCenters := by decide +kernel

theorem count_counterexample {rows : List (Row ℚ ℚ Unit)} (b : Int) (hb : ∀ r ∈ rows, r.bl = b) (hl : rows.length = 100173) :
    count std (.nTimes 317) true ((ofBl b rows).map Row.integ) = 316 ∧ (newRows std (.nTimes 317) true false rows b).length = 317 := by
  have hof : ofBl b rows = rows := by
    unfold ofBl
    rw [List.filter_eq_self]
    intro r hr
    simpa using hb r hr
  constructor
  · unfold count
    simp only [hof, List.length_map, hl]
    decide +kernel
  · obtain ⟨tail, hw, _⟩ := fill_windows (enough std (.nTimes 317)) true Row.integ (ofBl b rows)
    have := (windows_count (by decide) hw).2 rfl
    unfold newRows
    rw [List.length_map] at this ⊢
    rw [this, hof, hl]

/-- **C38.** The full claim is false: for a single baseline with 100173 times, averaging 317 of them with ragged ends kept ends
with `AssertionError`, whatever the data. -/
theorem downsample_counterexample {rows : List (Row ℚ ℚ Unit)} (b : Int) (hb : ∀ r ∈ rows, r.bl = b) (hl : rows.length = 100173) :
    downsample std (.nTimes 317) true false 1 id rows = .error .wrongNumber := by
  have hne : rows ≠ [] := by rintro rfl; simp at hl
  obtain ⟨r, l, rfl⟩ := List.exists_cons_of_ne_nil hne
  have hd : toDown std (.nTimes 317) (r :: l) = [b] := by
    have h1 : (toDown std (.nTimes 317) (r :: l)).Nodup := toDown_nodup _ _ _
    have h2 : ∀ x, x ∈ toDown std (.nTimes 317) (r :: l) ↔ x = b := by
      intro x
      rw [toDown_mem]
      constructor
      · rintro ⟨y, hy, rfl, _⟩; exact hb y hy
      · rintro rfl; exact ⟨r, by simp, hb r (by simp), by simp⟩
    generalize toDown std (.nTimes 317) (r :: l) = d at h1 h2
    match d with
    | [] => have := (h2 b).2 rfl; simp at this
    | [x] => have := (h2 x).1 (by simp); rw [this]
    | x :: y :: m =>
      have e1 := (h2 x).1 (by simp)
      have e2 := (h2 y).1 (by simp)
      rw [e1, e2] at h1
      simp at h1
  have hc := count_counterexample b hb hl
  unfold downsample
  simp only [sensible, Bool.not_true, Bool.false_eq_true, if_false, hd, List.isEmpty_cons, id_eq]
  unfold downsampleSorted
  rcases downBaseline_eq std (.nTimes 317) true false 1 (r :: l) b with ⟨h1, _⟩ | ⟨_, h1⟩
  · omega
  · simp only [hd, List.mapM_cons, List.mapM_nil, h1, bind, Except.bind, pure, Except.pure, List.flatten_cons, List.flatten_nil,
      List.append_nil, hc.2, List.map_cons, List.map_nil, List.sum_cons, List.sum_nil]
    have hc1 := hc.1
    unfold ofBl at hc1
    rw [hc1]
    simp

/-! ### There and back -/

example : ∃ l, Cut true (row 2 1 30 0 6 false 1) l ∧ l.length = 3 :=
  ⟨pieces std 10 true (row 2 1 30 0 6 false 1), cut_pieces true (by norm_num) (by decide +kernel), by decide +kernel⟩

/-- **C58.** Cutting a row into pieces and averaging as many of them gives the row back. -/
theorem up_down {K V ι : Type} [Field K] [LinearOrder K] [IsStrictOrderedRing K] [FloorRing K] [AddCommGroup V] [Module K V]
    {t : Tols K} {maxInt : K} {summing : Bool} {r : Row K V ι} (hm : 0 < maxInt) (hl : tooLong t maxInt r = true) :
    (average summing r.bl (pieces t maxInt summing r) (total Row.integ (pieces t maxInt summing r))).time = r.time ∧
    (average summing r.bl (pieces t maxInt summing r) (total Row.integ (pieces t maxInt summing r))).integ = r.integ ∧
    (average summing r.bl (pieces t maxInt summing r) (total Row.integ (pieces t maxInt summing r))).flag = r.flag ∧
    (average summing r.bl (pieces t maxInt summing r) (total Row.integ (pieces t maxInt summing r))).nsample = r.nsample ∧
    ∀ c, (summing = true ∨ r.nsample c ≠ 0) →
      (average summing r.bl (pieces t maxInt summing r) (total Row.integ (pieces t maxInt summing r))).data c = r.data c := by
  have hc := cut_pieces (t := t) summing hm hl
  have hp : ∀ x ∈ pieces t maxInt summing r, 0 < x.integ := by
    intro x hx
    simp only [pieces, List.mem_map] at hx
    obtain ⟨_, _, rfl⟩ := hx
    have hn : (0 : K) < (nNew t maxInt r.integ : Nat) := by exact_mod_cast nNew_pos hm hl
    simp only [tooLong, Bool.and_eq_true, decide_eq_true_eq] at hl
    exact div_pos (hm.trans hl.1) hn
  have := average_cut hc hp (average_spec summing r.bl rfl hc.nonempty hp)
  exact ⟨this.2.2.1, this.2.2.2.1, this.2.2.2.2.1, this.2.2.2.2.2.1, this.2.2.2.2.2.2⟩

end Verif.Resample
