import Mathlib.Data.Rat.Floor
import Verif.MsCal.Near
import Verif.MsCal.Props

/-! # Examples of calibration tables -/

namespace Verif.MsCal

/-- Antennas 5 and 2 have data, antenna 0 has none; two spectral windows whose channels alternate, two times, two Jones terms. -/
def exCal : Cal ℚ ℚ where
  tel := [5, 0, 2]
  names := ["e", "a", "c"]
  ants := [5, 2]
  spws := [7, 3]
  chanSpw := [3, 7, 3]
  wide := false
  delay := true
  jones := [-5, -6]
  nT := 2
  times := .range (fun t => 10 + t) (fun t => 11 + t)
  expo := fun t => 30 + t
  scan := some fun t => 4 - t
  refName := "c"
  refArr := none
  freq := fun i => 100 + i
  width := fun _ => 1
  soln := fun a i t j => 1000 * a + 100 * i + 10 * t + j
  flag := fun a i t j => decide ((a + i + t + j) % 3 = 0)
  qual := none
  totalQual := none
  divide := true
  extra := [("MSName", "m"), ("mine", "x")]

theorem exGood (tol : ℚ) (h0 : 0 ≤ tol) (h1 : tol < 86400) (x : Bool) : Good tol 3 { exCal with wide := x } where
  tel_ne := by cases x <;> simp [exCal]
  ants_sub := by cases x <;> simp [exCal]
  spws_ne := by cases x <;> simp [exCal]
  times := by cases x <;> simp [exCal]
  tol_nonneg := h0
  far := by
    intro i j hij hj
    have hj' : j < 2 := hj
    obtain rfl : i = 0 := by omega
    obtain rfl : j = 1 := by omega
    have : ({ exCal with wide := x } : Cal ℚ ℚ).mid 3 0 - ({ exCal with wide := x } : Cal ℚ ℚ).mid 3 1 = -86400 := by
      simp only [Cal.mid, exCal]; norm_num
    rw [this, abs_neg, abs_of_pos (by norm_num)]
    exact h1
  divide := rfl

example : polOrder exCal.jones = some [0, 1] := by decide +kernel
example : exCal.spws.flatMap exCal.chans = [1, 0, 2] := by decide +kernel
example := channels_perm (c := exCal) rfl (by decide) (by decide)
example := labels_agree (l := [-5, -6]) (by decide) (by decide) (by decide)

def exRead (c : Cal ℚ ℚ) : Except Err (Out ℚ ℚ) :=
  match write 3 c with
  | .error e => .error e
  | .ok f => read (1 / 1000) 3 true [0, 2, 5] ["a", "c", "e"] f

def exVal {β : Type} (g : Out ℚ ℚ → β) (c : Cal ℚ ℚ) : Option β :=
  match exRead c with
  | .error _ => none
  | .ok o => some (g o)

example := round_trip (c := exCal) (tol := 1 / 1000) (exGood (1 / 1000) (by norm_num) (by norm_num) false) (ord := [0, 1]) (by decide +kernel) rfl
  (tel := [0, 2, 5]) (by decide) (by intro n; simp [exCal]; omega) (names := ["a", "c", "e"]) (sky := true)
example := times_back (c := exCal) (tol := 1 / 1000) (exGood (1 / 1000) (by norm_num) (by norm_num) false) (ord := [0, 1]) (by decide +kernel) rfl
  (tel := [0, 2, 5]) (by intro n; simp [exCal]; omega) (names := ["a", "c", "e"]) (sky := true)
example : ∃ t < exCal.nT, (10 + (t : ℚ)) ≠ 11 + t := ⟨0, by decide, by norm_num⟩
example := ref_back (c := exCal) (tol := 1 / 1000) (exGood (1 / 1000) (by norm_num) (by norm_num) false) (ord := [0, 1]) (by decide +kernel) rfl
  (tel := [0, 2, 5]) (by intro n; simp [exCal]; omega) (names := ["a", "c", "e"]) (by decide) (by
    intro i n s h1 h2
    match i with
    | 0 => exact ⟨2, h1, h2⟩
    | 1 => exact ⟨0, h1, h2⟩
    | 2 => exact ⟨1, h1, h2⟩
    | i + 3 => simp [exCal] at h1) rfl (sky := true)

/-- The solution of antenna 2 at the channel of window 7, time 1 and the second term. -/
example : exVal (fun o => o.soln (1, 0, 1, 1)) exCal = some (1000 + 100 + 10 + 1) := by decide +kernel
example : exVal (fun o => (o.soln (0, 0, 1, 1), o.flag (0, 0, 1, 1))) exCal = some (0, true) := by decide +kernel
example : exVal (fun o => (o.chanSpw, o.njones, o.refName)) exCal = some ([7, 3, 3], 2, some "c") := by decide +kernel
example : exVal (fun o => o.extra) exCal = some [("MSName", "m")] := by decide +kernel
example : exVal (fun o => (o.njones, o.flag (1, 0, 1, 1))) { exCal with jones := [-6] } = some (1, true) := by decide +kernel

/-- Exchanged terms. -/
example : exVal (fun o => (o.jones, o.soln (1, 0, 1, 0))) { exCal with jones := [-6, -5] } = some (some [-6, -5], 1111) := by decide +kernel
example : Verif.Pol.casaOrder.idxOf (-5) < Verif.Pol.casaOrder.idxOf (-6) := by decide
example (g : Good (1 / 1000) 3 { exCal with jones := [-6, -5] }) := jones_counterexample g rfl (by decide) (by decide) (by decide) rfl
  (tel := [0, 2, 5]) (by decide) (by intro n; simp [exCal]; omega) (names := ["a", "c", "e"]) (sky := true)
example : Good (1 / 1000) 3 { exCal with jones := [-6, -5] } :=
  ⟨by simp [exCal], by simp [exCal], by simp [exCal], by simp [exCal], by norm_num, (exGood (1 / 1000) (by norm_num) (by norm_num) false).far, rfl⟩

example := total_quality_counterexample (off := (3 : ℚ)) (c := { exCal with totalQual := some fun _ _ _ => 1 }) (ord := [0, 1]) (by decide +kernel) (by simp [exCal])
  (by simp [exCal]) rfl rfl
example := refused (off := (3 : ℚ)) (c := { exCal with jones := [-5, -6, -7] }) (Or.inl (by decide))
example := extra_counterexample (c := exCal) (tol := 1 / 1000) (exGood (1 / 1000) (by norm_num) (by norm_num) false) (ord := [0, 1]) (by decide +kernel) rfl
  (tel := [0, 2, 5]) (names := ["a", "c", "e"]) (sky := true)

/-! ### Close times -/

example := near_times_partial (tol := (1 / 1000 : ℚ)) (by norm_num) (ts := [3, 1, 3, 2]) (by decide +kernel)
example : timeIdx (1 / 1000 : ℚ) ([], 0) [3, 1, 3, 2] = ([0, 1, 0, 2], 3) := by decide +kernel
example : timeIdx (1 / 1000 : ℚ) ([], 0) [1, 1 + 1 / 10000, 2, 2 + 1 / 10000] = ([0, 0, 1, 2], 2) :=
  near_index_counterexample (by norm_num) (by norm_num) (by norm_num) (by decide +kernel) (by decide +kernel) (by decide +kernel) (by decide +kernel)
    (by decide +kernel) (by decide +kernel)
example : timeIdx (1 / 1000 : ℚ) ([], 0) [1, 1 + 1 / 10000, 2, 3, 2 + 1 / 10000] = ([0, 0, 1, 2, 2], 3) :=
  near_wrong_counterexample (by norm_num) (by norm_num) (by norm_num) (by decide +kernel) (by decide +kernel) (by decide +kernel) (by decide +kernel)
    (by decide +kernel) (by decide +kernel) (by decide +kernel) (by decide +kernel) (by decide +kernel) (by decide +kernel)

def exRow (t : ℚ) : Row ℚ ℚ := ⟨t, 0, 2, 0, 0, 0, 0, 1, fun _ _ => 1, fun _ _ => 1, fun _ _ => false⟩

def exFile : File ℚ ℚ := ⟨[exRow 1, exRow (1 + 1 / 10000), exRow 2, exRow (2 + 1 / 10000)], [⟨0, [(5, 1)]⟩], 2, false, false, none, [], []⟩

example := near_read_counterexample (tol := (1 / 1000 : ℚ)) (off := 3) (names := ["c"]) (sky := true) (f := exFile) (tel := [2]) (by norm_num) (by decide +kernel)
  (by decide +kernel) (by decide +kernel) (by decide +kernel) (by decide +kernel) (by decide +kernel) (by decide +kernel) (by decide +kernel)
  (r1 := exRow 1) (r2 := exRow (1 + 1 / 10000)) (r3 := exRow 2) (r4 := exRow (2 + 1 / 10000)) rfl rfl rfl rfl rfl rfl

end Verif.MsCal
