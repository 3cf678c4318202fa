import Mathlib.Data.Rat.Floor
import Verif.Cst.File
import Verif.Cst.Many
import Verif.Cst.Regular

/-! # Examples: the hypotheses can be met -/

namespace Verif.Cst

open Verif.Pol (Str)

/-- `HERA_4.9m_E-pattern_150.5MHz.txt` is 150.5 MHz. -/
example : name2freq (K := ℚ) ("HERA_4.9m_E-pattern_".toList ++ written "150".toList "5".toList ++ "M".toList ++ ('H' :: 'z' :: ".txt".toList)) =
    some (toNum ("150".toList, "5".toList) * 1000000) := by
  have := name2freq_written (K := ℚ) (pre := "HERA_4.9m_E-pattern_".toList) (ds := "150".toList) (fr := "5".toList) (gap := "M".toList)
    (post := ".txt".toList) (by decide +kernel) (by decide +kernel) (by decide +kernel) (by decide +kernel) (by decide +kernel) (by decide +kernel)
  simpa [si] using this

/-- `beam_v2.150MHz.txt` is 2.15 MHz. -/
example := point_counterexample (K := ℚ) (pre := "beam_v".toList) (v := "2".toList) (ds := "150".toList) (gap := "M".toList) (post := ".txt".toList)
  (by decide +kernel) (by decide +kernel) (by decide +kernel) (by decide +kernel) (by decide +kernel) (by decide +kernel)

example : name2freq (K := ℚ) "beam_v2.150MHz.txt".toList = some 2150000 := by decide +kernel

/-- `1.5e8Hz` is 8 Hz. -/
example := exponent_counterexample (K := ℚ) (pre := "1.5".toList) (ds := "8".toList) (gap := []) (post := ".txt".toList)
  (by decide +kernel) (by decide +kernel) (by decide +kernel) (by decide +kernel)

example : name2freq (K := ℚ) "1.5e8Hz.txt".toList = some 8 := by decide +kernel

def exCols : List (Str × Str) := [("Theta ".toList, "deg.".toList), ("  Phi   ".toList, "deg.".toList), ("  Abs(E   )".toList, "V/m   ".toList)]

/-- `Theta [deg.]  Phi   [deg.]  Abs(E   )[V/m   ]`. -/
example : header ("  ".toList ++ text exCols ++ "\n".toList) =
    some [("theta".toList, "deg.".toList), ("phi".toList, "deg.".toList), ("abs(e)".toList, "v/m".toList)] := by
  have := header_text (ws := "  ".toList) (ws' := "\n".toList) (cols := exCols) (by decide +kernel) (by decide +kernel) (by decide +kernel)
    (by decide +kernel)
  rw [this]
  decide +kernel

example := tab_counterexample "Theta".toList "deg.".toList

example : column "Theta\t[deg.".toList = some ("theta\t".toList, "deg.".toList) := by decide +kernel

def exH : List (Str × Str) := [("theta".toList, "deg.".toList), ("phi".toList, "deg.".toList), ("abs(e)".toList, "v/m".toList)]

example : colOf exH "phi".toList = some 1 := by decide +kernel
example := colOf_some (h := exH) (name := "phi".toList) (i := 1) (by decide +kernel)
example := (powerCol_iff (h := exH) (i := 2)).1 (by decide +kernel)
example : colOf exH "abs(v)".toList = none := colOf_none.2 (by decide +kernel)

def exT : Tols ℚ := ⟨(0, 1 / 1000), (0, 1 / 1000), (1 / 100000, 1 / 100000000)⟩

/-- Zenith angles 0, 10, 20 and azimuths in steps of 90 degrees. -/
def exF : ℚ → ℚ → ℚ := fun t p => 1000 * t + p

theorem exSpaced : spaced exT.za.1 exT.za.2 ([0, 10, 20] : List ℚ) := by decide +kernel

example := grid_read_partial (T := ([0, 10, 20] : List ℚ)) (P := steps 90 4) (f := exF) (t := exT) (q := 90) true (by decide +kernel)
  (steps_sorted (by decide +kernel) 4) (by decide +kernel) (by decide +kernel) exSpaced (steps_spaced 4)

example : ∃ b, readGrid exT 90 false (fileRows ([0, 10, 20] : List ℚ) (steps 90 4) exF) = .ok b ∧ Regular exT.za.1 exT.za.2 b.axis2 := by
  obtain ⟨b, h, -⟩ := grid_read_partial (T := ([0, 10, 20] : List ℚ)) (P := steps 90 4) (f := exF) (t := exT) (q := 90) false (by decide +kernel)
    (steps_sorted (by decide +kernel) 4) (by decide +kernel) (by decide +kernel) exSpaced (steps_spaced 4) |>.resolve_right (by simp)
  exact ⟨b, h, (read_regular (by decide +kernel) (by decide +kernel) (by decide +kernel) (by decide +kernel) h).2.1⟩

example := reversed_counterexample (T := ([0, 10, 20] : List ℚ)) (P := steps 90 4) (f := exF) (t := exT) (q := 90) (by decide +kernel)
  (steps_sorted (by decide +kernel) 4) (by decide +kernel) (by decide +kernel) exSpaced (steps_spaced 4)

example := hole_counterexample (K := ℚ) (t := exT) (q := 90) (t0 := 0) (t1 := 10) (p0 := 0) (p1 := 90) (by decide +kernel) (by decide +kernel)
  "a" "b" "c" "d"

example := (circle_rotated (T := ([0, 10, 20] : List ℚ)) (f := exF) (t := exT) (q := 90) (d := 45) (m := 8) (by decide +kernel) (by decide +kernel) exSpaced
  (by decide +kernel) (by decide +kernel) (by decide +kernel) (by decide +kernel) (by decide +kernel) (by decide +kernel)).1 (by decide +kernel)

/-- Steps of 60 degrees cannot be turned by 90 degrees. -/
example := (circle_rotated (T := ([0, 10, 20] : List ℚ)) (f := exF) (t := exT) (q := 90) (d := 60) (m := 6) (by decide +kernel) (by decide +kernel) exSpaced
  (by decide +kernel) (by decide +kernel) (by decide +kernel) (by decide +kernel) (by decide +kernel) (by decide +kernel)).2 (by decide +kernel)

example := closed_refused (T := ([0, 10, 20] : List ℚ)) (f := exF) (t := exT) (q := 90) (d := 90) (m := 4) (by decide +kernel) (by decide +kernel) exSpaced
  (by decide +kernel) (by decide +kernel) (by decide +kernel) (by decide +kernel)

/-- A beam that is read with rotation. -/
example : ∃ b g, readGrid exT 90 true (fileRows ([0, 10, 20] : List ℚ) (steps 90 4) exF) = .ok b ∧ b.second = some g ∧ g 1 0 = some (exF 10 270) := by
  obtain ⟨b, g, h, _, hg, hv⟩ := (circle_rotated (T := ([0, 10, 20] : List ℚ)) (f := exF) (t := exT) (q := 90) (d := 90) (m := 4) (by decide +kernel)
    (by decide +kernel) exSpaced (by decide +kernel) (by decide +kernel) (by decide +kernel) (by decide +kernel) (by decide +kernel)
    (by decide +kernel)).1 (by decide +kernel)
  refine ⟨b, g, h, hg, ?_⟩
  rw [hv 1 0 10 rfl (by decide +kernel)]
  decide +kernel

example {b : Beam ℚ ℚ} (h : readGrid exT 90 true (fileRows ([0, 10, 20] : List ℚ) (steps 90 4) exF) = .ok b) := second_meaning h

/-- A whole file in degrees; here radians are a hundredth of a degree, to have rational numbers. -/
example := readPower_file (K := ℚ) (t := exT) (rad := fun x => x / 100) (q := 9 / 10) (rotate := false) (line := text exCols) (h := exH) (it := 0) (ip := 1)
  (ie := 2) (T := [0, 10]) (P := [0, 90]) (row := fun t p => [t, p, t + p]) (v := fun t p => t + p) (g := fun t p => (100 * t + 100 * p) ^ 2)
  (by decide +kernel) (by decide +kernel) (by decide +kernel) (by decide +kernel) (by decide +kernel) (by decide +kernel)

def exLine : Str := "Theta[deg.]Phi[deg.]Abs(E)[V/m]Abs(Theta)[V/m]Phase(Theta)[deg.]Abs(Phi)[V/m]Phase(Phi)[deg.]".toList

/-- A field with magnitudes and phases in degrees; a number of magnitude and phase is kept as a pair. -/
example := readField_file (K := ℚ) (α := ℚ × ℚ) (t := exT) (rad := fun x => x / 100) (polar := Prod.mk) (q := 9 / 10) (rotate := false) (line := exLine)
  (h := [("theta".toList, "deg.".toList), ("phi".toList, "deg.".toList), ("abs(e)".toList, "v/m".toList), ("abs(theta)".toList, "v/m".toList),
    ("phase(theta)".toList, "deg.".toList), ("abs(phi)".toList, "v/m".toList), ("phase(phi)".toList, "deg.".toList)])
  (it := 0) (ip := 1) (mt := 3) (pt := 4) (mp := 5) (pp := 6) (T := [0, 10]) (P := [0, 90])
  (row := fun t p => [t, p, 5, 3 + t, 10, 4 + p, 20]) (magT := fun t _ => 3 + t) (phT := fun _ _ => 10) (magP := fun _ p => 4 + p) (phP := fun _ _ => 20)
  (g := fun t p => ((4 + 100 * p, 20 / 100), (3 + 100 * t, 10 / 100)))
  (by decide +kernel) (by decide +kernel) (by decide +kernel) (by decide +kernel) (by decide +kernel) (by decide +kernel) (by decide +kernel)
  (by decide +kernel) (by decide +kernel)

/-- Magnitudes 3 and 4 give a magnitude of 5. -/
example (x : Except Err (Beam ℝ (ℂ × ℂ))) (t : Tols ℝ)
    (hx : readField t (fun x => x * (Real.pi / 180)) polarC (Real.pi / 2) false exLine [[0, 0, 5, 3, 10, 4, 20], [0, 90, 5, 3, 10, 4, 20]] = some x) :=
  power_of_field (line := exLine)
    (h := [("theta".toList, "deg.".toList), ("phi".toList, "deg.".toList), ("abs(e)".toList, "v/m".toList), ("abs(theta)".toList, "v/m".toList),
      ("phase(theta)".toList, "deg.".toList), ("abs(phi)".toList, "v/m".toList), ("phase(phi)".toList, "deg.".toList)])
    (ie := 2) (mt := 3) (mp := 5) (by decide +kernel) (by decide +kernel) (by decide +kernel) (by decide +kernel)
    (by
      intro row hrow a b ha hb
      simp only [List.mem_cons, List.not_mem_nil, or_false] at hrow
      rcases hrow with rfl | rfl <;>
      · simp at ha hb
        subst ha; subst hb
        exact ⟨5, rfl, by norm_num⟩) hx

example := rotPol_twice (p := "xy".toList) (r := "yx".toList) (by decide)
example := labels_agree (p := "y".toList) true (Or.inr rfl)
example := feeds_counterexample (p := "xx".toList) (by decide) true

/-! ## Several files -/

/-- A beam is the list of what was read. -/
def exRead : Bool → Job String Nat Char → Option (List (String × Option Nat × Char × Bool)) := fun r j => some [(j.name, j.freq, j.pol, r)]

def exAdd : List (String × Option Nat × Char × Bool) → List (String × Option Nat × Char × Bool) → Option (List (String × Option Nat × Char × Bool)) :=
  fun a b => if a = b then none else some (a ++ b)

example := files_lists (readOne := exRead) (add := exAdd) (rotate := none) (names := ["a", "b"]) (fs := [100, 150]) (ps := ['x', 'y']) rfl rfl
  [("a", some 100, 'x', false), ("b", some 150, 'y', false)]

example : readFiles exRead exAdd none (.many ["a", "b"]) (some (.many [100, 150])) (.many ['x', 'y']) =
    some [("a", some 100, 'x', false), ("b", some 150, 'y', false)] := by decide +kernel

example := files_single (readOne := exRead) (add := exAdd) (rotate := none) (names := ["a", "b"]) none 'x'
  [("a", none, 'x', true), ("b", none, 'x', true)]

example := files_refused (readOne := exRead) (add := exAdd) (rotate := none) (names := ["a", "b"]) (freq := some (.many [1, 2, 3])) (fs := [1, 2, 3])
  (pol := .one 'x') (ps := []) (Or.inl ⟨rfl, by decide, by decide⟩)

def exClose : Nat → Nat → Bool := fun a b => a ≤ b + 1 && b ≤ a + 1

example := settings_select (isClose := exClose) (readOne := exRead) (add := exAdd) (rotate := none) (names := ["a", "b", "c", "d"])
  (fs := [100, 100, 150, 150]) (ps := ['x', 'y', 'x', 'y']) (sel := [151]) [("c", some 150, 'x', false), ("d", some 150, 'y', false)] (by decide +kernel)

example := settings_override (isClose := exClose) (readOne := exRead) (add := exAdd) (rotate := none) (names := ["a", "b"]) (fs := [1, 2]) (fs' := [3, 4])
  (pol := .one 'x') (pol' := .one 'y') (sel := none)

example := twice_counterexample (isClose := exClose) (readOne := exRead) (add := exAdd) (rotate := none) (n := "a") (f := 100) (p := 'x') rfl
  (by intro b; simp [exAdd])

example := pick_none (isClose := exClose) (fs := [100, 150]) (sel := [120])

example := extra_kept (known := fun k => k == "history".toList) (given := [("a".toList, 1)]) (settings := [("history".toList, 2), ("b".toList, 3)])
  (k := "a".toList) (by decide +kernel)

example := extra_counterexample (known := fun k => k == "history".toList) (given := [("a".toList, 1)]) (s1 := [("history".toList, 2)])
  (s2 := [("sim_beam_type".toList, 4)]) (k := "a".toList) (v := 3) (by decide +kernel) (by decide +kernel) (by decide +kernel)

end Verif.Cst
