import Mathlib.Data.Rat.Star
import Mathlib.Algebra.Order.Ring.Rat
import Mathlib.Tactic.NormNum
import Verif.Fhd.Props

/-! # Cases of files of FHD -/

namespace Verif.Fhd

local instance negStar : Star Int := ⟨fun x => -x⟩

def obs1 : Obs Int := { polNames := [.xx, .yy], tileA := fun _ => 1, tileB := fun i => i + 1, nTime := 2, jdate := [100, 200], binOffset := [0, 3] }

def fx : File Int Int := { name := "a_vis_XX.sav".toList, vis := some fun b c => 10 * b + c, model := none, obs := obs1 }
def fy : File Int Int := { name := "a_vis_yy.sav".toList, vis := some fun b c => 100 * b + c, model := none, obs := obs1 }

def wts : List (Nat → Nat → Int) := [fun b _ => b - 1, fun b _ => 5 - b]

example : classify "a_vis_XX.sav".toList = some .xx := by decide +kernel
example : classify "a_flags.sav".toList = none := by decide +kernel

/-- The second file is of the first polarization. -/
example : (match readVis [fy, fx] wts with
  | .ok o => (o.pols, o.data 2 3 0, o.data 2 3 1, o.flag 1 0 0, o.flag 2 0 0, o.nsample 0 0 0, o.nsample 0 0 1) ==
      ([.xx, .yy], (-23 : Int), (-203 : Int), true, false, (1 : Int), (5 : Int))
  | .error _ => false) = true := by decide +kernel

example : Together false [fy, fx] := ⟨by decide +kernel, by decide +kernel, by decide +kernel⟩

example : ∃ o, readVis [fy, fx] wts = .ok o :=
  vis_ok (m := false) (last := fx) ⟨by decide +kernel, by decide +kernel, by decide +kernel⟩ rfl (by decide +kernel) (by decide +kernel) rfl (by
    intro f hf p _
    cases p <;> first | decide | skip
    all_goals
      rename_i h
      simp only [List.mem_cons, List.not_mem_nil, or_false] at hf
      rcases hf with rfl | rfl <;> exact absurd h (by decide +kernel))

/-- Data and models are not read together, and two files of a polarization neither. -/
example : ∀ m, ¬ Together m [fx, { fy with name := "a_vis_model_yy.sav".toList }] := by
  intro m h
  have h1 := h.2.2 fx (by simp)
  have h2 := h.2.2 { fy with name := "a_vis_model_yy.sav".toList } (by simp)
  exact absurd (h1.trans h2.symm) (by decide +kernel)

example : (match readVis [fx, fx] wts with
  | .error e => decide (e = .multiple)
  | .ok _ => false) = true := by decide +kernel

/-- Baseline-times 0, 1, 2 have the first time, others the second. -/
example : obs1.nTime ≠ 1 ∧ obs1.binOffset.length = obs1.jdate.length ∧ obs1.binOffset.Pairwise (· ≤ ·) := by decide +kernel

example : (match times obs1 with
  | some x => decide ([x 0, x 2, x 3, x 7] = [100, 100, 200, 200])
  | none => false) = true := by decide +kernel

example : antOf [11, 12, 13] 2 = some 12 := rfl

/-- A phase of one. -/
example : star (([((3 : ℚ), (2 : ℚ))].map fun s => s.1 * (fun _ => (1 : ℚ)) ((5 : ℚ) * s.2)).sum) = 3 := by
  rw [conj_uvw (fun _ => (1 : ℚ)) (fun _ => by simp) [(3, 2)] (by simp) (c := 7) (u := 5) (by norm_num)]
  simp

/-- The second time is not used. -/
def cf : CalFile ℚ ℚ where
  gain := [fun a c => a + c]
  residual := [fun _ _ => 100]
  conv := [fun a _ => a]
  nPol := 1
  tileUse := [1, 0]
  freqUse := [1, 1, 0]
  jdate := [10, 20, 30]
  timeUse := [1, 0, 1]
  timeRes := 345600

example : (match readCal true cf with
  | some o => (o.gain 1 2 0, o.flag 0 0 0, o.flag 1 0 0, o.flag 0 2 0, o.range, o.jones) == ((103 : ℚ), false, true, true, ((9 : ℚ), (31 : ℚ)), [(-5 : Int)])
  | none => false) = true := by decide +kernel

end Verif.Fhd
