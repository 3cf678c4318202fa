import Verif.CalConcat.Props

/-! # Cases of concatenated calibrations -/

namespace Verif.CalConcat

def exact : Close Int := ⟨(· == ·), (· == ·), (· == ·), (· == ·), (· == ·)⟩

def shape (a f t j : Nat) : Pos
  | .ant => a
  | .freq => f
  | .time => t
  | .jones => j

def noMore : Verif.Pol.Str → List Verif.Pol.Str → Verif.Pol.Str := fun _ _ => []

/-- Two antennas, channels of windows 5 and 6. -/
def o1 : Obj Int Int Int Nat :=
  { head := 0, wide := false, isGain := true, ants := [10, 11], freq := some [1, 2, 3], width := some [1, 1, 1], spwId := some [5, 5, 6], spws := [5, 6],
    freqRange := none, flexJones := some [-5, -6], time := some [100], timeRange := none, integ := [2], lst := some [1], lstRange := none,
    hasCatalog := false, pcId := none, refAnt := none, jones := [0], soln := ⟨shape 2 3 1 1, fun i => 10 * i .ant + i .freq⟩,
    flag := ⟨shape 2 3 1 1, fun _ => false⟩, quality := none, total := none, history := [] }

/-- Channels of windows 6 and 7. -/
def o2 : Obj Int Int Int Nat :=
  { o1 with freq := some [4, 5], width := some [1, 1], spwId := some [6, 7], spws := [6, 7], flexJones := some [-6, -5],
            soln := ⟨shape 2 2 1 1, fun i => 100 + 10 * i .ant + i .freq⟩, flag := ⟨shape 2 2 1 1, fun _ => true⟩,
            quality := some ⟨shape 2 2 1 1, fun _ => 7⟩ }

/-- Channels of windows 7 and 8. -/
def o3 : Obj Int Int Int Nat := { o2 with spwId := some [7, 8], spws := [7, 8] }

/-- Another antenna. -/
def o4 : Obj Int Int Int Nat := { o1 with ants := [12], soln := ⟨shape 1 3 1 1, fun _ => 9⟩, flag := ⟨shape 1 3 1 1, fun _ => true⟩ }

example : Fits o1 := by constructor <;> simp [o1, shape]

example : Fits o3 := by
  constructor <;> simp [o3, o2, o1, shape]

example : SameParams o1 o3 := by simp [SameParams, o1, o3, o2]

/-- Solutions of channel 1 of the second object are at channel 4. -/
example : (match fastConcat exact noMore .freq o1 [o3] with
  | (r, none) => decide (r.soln.v (shape 1 4 0 0) = 111 ∧ r.soln.v (shape 1 2 0 0) = 12 ∧ r.flag.v (shape 0 3 0 0) = true ∧ r.freq = some [1, 2, 3, 4, 5] ∧
      r.spws = [5, 6, 7, 8] ∧ r.flexJones = some [-5, -6, -6, -5] ∧ (r.quality.map fun q => (q.v (shape 0 0 0 0), q.v (shape 0 3 0 0))) = some (0, 7))
  | _ => false) = true := by decide +kernel

example : Verif.Add.firstAppearance ((catO o1.spwId ([o3].map Obj.spwId)).getD []) = cat1 o1.spws ([o3].map Obj.spws) := by decide +kernel

/-- Window 6 is in both objects: window 7 gets the Jones term -6 of window 6 and not its own, -5. -/
example : (match fastConcat exact noMore .freq o1 [o2] with
  | (r, none) => decide (r.spws = [5, 6, 7] ∧ r.flexJones = some [-5, -6, -6] ∧ jonesOf o2 1 = some (-5) ∧ jonesOf r 4 = some (-6))
  | _ => false) = true := by decide +kernel

example : o1.flexJones = some [-5, -6] ∧ (6 : Int) ∈ o1.spws ∧ (7 : Int) ∉ o1.spws ∧
    Verif.Add.firstAppearance ([5, 5, 6] ++ [6, 7]) = o1.spws ++ [7] := by decide +kernel

/-- Windows listed as 6, 5. -/
example : (match fastConcat exact noMore .freq { o1 with spws := [6, 5], flexJones := some [-6, -5] } [o3] with
  | (r, none) => decide (jonesOf { o1 with spws := [6, 5], flexJones := some [-6, -5] } 0 = some (-5) ∧ jonesOf r 0 = some (-6))
  | _ => false) = true := by decide +kernel

/-- Another antenna, whose Jones terms are other ones. -/
example : (match fastConcat exact noMore .antenna o1 [{ o4 with flexJones := some [-6, -5] }] with
  | (r, none) => decide (r.ants = [10, 11, 12] ∧ r.soln.v (shape 2 0 0 0) = 9 ∧ r.flexJones = some [-5, -6])
  | _ => false) = true := by decide +kernel

/-- Other frequencies are refused, and the history is longer. -/
example : (match fastConcat exact noMore .antenna o1 [{ o4 with freq := some [1, 2, 4] }] with
  | (r, some e) => decide (e = .compat ∧ r.history ≠ o1.history)
  | _ => false) = true := by decide +kernel

/-- Channels of a wide-band object cannot be concatenated. -/
example : (match fastConcat exact noMore .freq { o1 with wide := true } [{ o3 with wide := true }] with
  | (_, some e) => decide (e = .axis)
  | _ => false) = true := by decide +kernel

/-- Times and whole-array qualities. -/
example : (match fastConcat exact noMore .time { o1 with total := some ⟨shape 1 3 1 1, fun _ => 4⟩ } [{ o1 with time := some [200] }] with
  | (r, none) => decide (r.time = some [100, 200] ∧ (r.total.map fun q => (q.v (shape 0 1 0 0), q.v (shape 0 1 1 0))) = some (4, 0))
  | _ => false) = true := by decide +kernel

end Verif.CalConcat
