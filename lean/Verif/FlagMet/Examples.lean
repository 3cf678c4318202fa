import Verif.FlagMet.Whole
import Mathlib.Analysis.Real.Sqrt

namespace Verif.FlagMet
open Verif.Np
open Verif.Pol (Str)
open Verif.Collapse (Val Out mean absmean quadmean)

/-- There are square roots. -/
example : IsSqrt Real.sqrt := fun x hx => ⟨Real.sqrt_nonneg x, Real.mul_self_sqrt hx⟩

/-- No root is wanted here. -/
def noRoot : ℚ → ℚ := fun x => x

theorem mean_root {p : Prop} : Method.mean = .quadmean → p := fun h => nomatch h

def obsV : Arr (Val ℚ) := fun _ r _ p => .fin (2 * r + p)
def obsW : Arr ℚ := fun _ r _ p => 1 + r * p

/-- Two baselines at the first time, one at the second. -/
def obs : Obj ℚ where
  ty := .baseline
  times := [1, 2, 1]
  lsts := [3, 4, 3]
  nants := 0
  nf := 1
  pols := [['x', 'x'], ['y', 'y']]
  data := .metric obsV obsW
  wsq := none

/-- A flag object with as many flagged baselines at one time. -/
def flags (n : Nat) (b : Bool) : Obj ℚ where
  ty := .baseline
  times := List.replicate n 1
  lsts := List.replicate n 3
  nants := 0
  nf := 1
  pols := [['x', 'x'], ['y', 'y']]
  data := .flag (fun _ _ _ _ => b)
  wsq := none

/-- The same as metrics. -/
def asMetric (n : Nat) (b : Bool) : Obj ℚ := { flags n b with data := .metric (fun _ _ _ _ => num b) (fun _ _ _ _ => 1) }

def entryAt (o : Obj ℚ) (i r f p : Nat) : Option (ℚ × Val ℚ) :=
  match o.data with
  | .flag _ => none
  | .metric v w => some (w i r f p, v i r f p)

def done (x : Except Err (Obj ℚ)) : Option (Obj ℚ) := match x with
  | .ok o => some o
  | .error _ => none

/-- Metrics of two objects. -/
example : ((done (combine noRoot .mean obs [{ obs with data := .metric (fun _ _ _ _ => .fin 1) (fun _ _ _ _ => 3) }])).bind
    (fun o => entryAt o 0 1 0 0)) = some (4, .fin (5 / 4)) := by decide +kernel
example : ((done (combine noRoot .mean obs [{ obs with data := .metric (fun _ _ _ _ => .inf true) (fun _ _ _ _ => 3) }])).bind
    (fun o => entryAt o 0 1 0 0)) = some (1, .fin 2) := by decide +kernel
example : (done (combine noRoot .or obs [obs])).isSome = false := by decide +kernel
example : (done (combine noRoot .mean obs [flags 3 true])).isSome = false := by decide +kernel
example : (done (combine noRoot .mean obs [asMetric 2 true])).isSome = false := by decide +kernel
example : HasMetric obs := ⟨_, _, rfl⟩

/-- Polarizations, rows, and both. -/
example : entryAt (collapsePol noRoot .mean obs).1 0 1 0 0 = some (3, .fin (8 / 3)) := by decide +kernel
example : (collapsePol noRoot .mean obs).1.pols = [['x', 'x', ',', 'y', 'y']] := by decide +kernel
example : (toWaterfall noRoot .mean true true obs).2 = none := by decide +kernel
example : (toWaterfall noRoot .mean true true obs).1.times = [1, 2] := by decide +kernel
example : (toWaterfall noRoot .mean true true obs).1.lsts = [3, 4] := by decide +kernel
example : entryAt (toWaterfall noRoot .mean true true obs).1 0 0 0 1 = some (4, .fin 4) := by decide +kernel
example : ((toWaterfall noRoot .mean true true obs).1.wsq.map (fun q => q.2 0 0 0 1)) = some 10 := by decide +kernel
example : entryAt (toWaterfall noRoot .mean false false obs).1 0 0 0 0 = some (6, .fin (10 / 3)) := by decide +kernel
example : entryAt (collapsePol noRoot .mean (toWaterfall noRoot .mean true false obs).1).1 0 0 0 0 =
    some (6, .fin (10 / 3)) := by decide +kernel

/-- The rows of the first time. -/
example : Sources obs 1 [(0, 0), (0, 2)] := by
  refine ⟨by decide, ?_⟩
  intro i r
  rcases r with _ | _ | _ | r
  · simp [obs]
  · simp [obs]
  · simp [obs]
  · simp [obs]

/-- The two orders agree for this object. -/
example (x y z : Obj ℚ) (hx : toWaterfall noRoot .mean false false obs = (x, none))
    (hy : toWaterfall noRoot .mean true false obs = (y, none)) (hz : collapsePol noRoot .mean y = (z, none))
    (hkx : x.times[0]? = some 1) (hkz : z.times[0]? = some 1) (hl : Sources obs 1 [(0, 0), (0, 2)]) :
    ∃ e, At x 0 0 0 0 e ∧ At z 0 0 0 0 e := by
  refine wf_orders noRoot .mean mean_root obs x y z _ _ rfl (by decide) (fun h => nomatch h) (by decide) hx hy hz 0 1
    hkx hkz 0 _ hl ?_ ?_
  · intro s hs
    have hpos : (0 : ℚ) ≤ (s.2 : ℚ) := Nat.cast_nonneg _
    refine ⟨?_, Or.inr ?_⟩
    · intro e he
      obtain ⟨p, -, rfl⟩ := List.mem_map.1 he
      have : (0 : ℚ) ≤ 1 + (s.2 : ℚ) * (p : ℚ) := by positivity
      exact ⟨nofun, this⟩
    · have : tot (allPols obsV obsW obs.pols.length 0 s) = 2 + (s.2 : ℚ) := by
        simp [tot, allPols, obs, List.range_succ, wt, ent, obsV, obsW]
        ring
      rw [this]
      have h1 : (thr : ℚ) < 1 := by norm_num [thr]
      linarith
  · intro p hp
    refine Or.inr ?_
    have hpos : (0 : ℚ) ≤ (p : ℚ) := Nat.cast_nonneg _
    have : tot ([(0, 0), (0, 2)].map (ent obsV obsW 0 p)) = 2 + 2 * (p : ℚ) := by
      simp [tot, wt, ent, obsV, obsW]
      ring
    rw [this]
    have h1 : (thr : ℚ) < 1 := by norm_num [thr]
    linarith

/-- What comes of the two orders has the first time there. -/
example : (toWaterfall noRoot .mean false false obs).1.times[0]? = some 1 := by decide +kernel
example : (toWaterfall noRoot .mean false false obs).2 = none := by decide +kernel
example : (toWaterfall noRoot .mean true false obs).2 = none := by decide +kernel
example : (collapsePol noRoot .mean (toWaterfall noRoot .mean true false obs).1).2 = none := by decide +kernel
example : (collapsePol noRoot .mean (toWaterfall noRoot .mean true false obs).1).1.times[0]? = some 1 := by decide +kernel

/-- Objects of one antenna. -/
def ants : Obj ℚ := { obs with ty := .antenna, nants := 2, times := [5, 6], lsts := [1, 2], pols := [['J']], data := .metric (fun i r _ _ => .fin (i + 3 * r)) (fun _ _ _ _ => 1) }

example : entryAt (toWaterfall noRoot .mean true false ants).1 0 1 0 0 = some (2, .fin (7 / 2)) := by decide +kernel

/-- Of flags, the share that is set. -/
example : entryAt (collapsePol noRoot .mean { flags 1 true with data := .flag (fun _ _ _ p => p == 0) }).1 0 0 0 0 = some (1, .fin (1 / 2)) := by
  decide +kernel

/-! ### What does not hold -/

/-- Combining compares shapes only: metrics of other times are averaged with those of the first object. -/
theorem other_times_counterexample : ∃ (a b : Obj ℚ), (∀ t ∈ a.times, t ∉ b.times) ∧
    (done (combine noRoot .mean a [b])).map (fun o => o.times) = some a.times ∧
    (done (combine noRoot .mean a [b])).bind (fun o => entryAt o 0 0 0 0) = some (2, .fin (1 / 2)) := by
  refine ⟨asMetric 1 true, { asMetric 1 false with times := [7] }, ?_, ?_, ?_⟩
  · intro t ht
    simp [asMetric, flags] at ht ⊢
    rw [ht]
    norm_num
  · decide +kernel
  · decide +kernel

/-- The stored squares of weights are not those of the combined metrics: weights are summed, the squares stay. -/
theorem stale_counterexample : ∃ a : Obj ℚ, (toWaterfall noRoot .mean true true a).2 = none ∧
    (done (combine noRoot .mean (toWaterfall noRoot .mean true true a).1 [(toWaterfall noRoot .mean true true a).1])).bind
      (fun o => entryAt o 0 0 0 0) = some (4, .fin 1) ∧
    ((toWaterfall noRoot .mean true true a).1.wsq.map (fun q => q.2 0 0 0 0)) = some 2 ∧
    (done (combine noRoot .mean (toWaterfall noRoot .mean true true a).1 [(toWaterfall noRoot .mean true true a).1])).bind
      (fun o => o.wsq.map (fun q => q.2 0 0 0 0)) = some 2 := by
  refine ⟨asMetric 2 true, ?_, ?_, ?_, ?_⟩ <;> decide +kernel

/-- The number of flags behind a share is lost: a share of three and one flag are combined as if they were one each, other than
if the flags are made metrics before. -/
theorem shares_counterexample : ∃ (a b a' b' : Obj ℚ), a' = asMetric 3 false ∧ b' = asMetric 1 true ∧ a = flags 3 false ∧
    b = flags 1 true ∧
    (done (combine noRoot .mean (toWaterfall noRoot .mean true false a).1 [(toWaterfall noRoot .mean true false b).1])).bind
      (fun o => entryAt o 0 0 0 0) = some (2, .fin (1 / 2)) ∧
    (done (combine noRoot .mean (toWaterfall noRoot .mean true false a').1 [(toWaterfall noRoot .mean true false b').1])).bind
      (fun o => entryAt o 0 0 0 0) = some (4, .fin (1 / 4)) := by
  refine ⟨_, _, _, _, rfl, rfl, rfl, rfl, ?_, ?_⟩ <;> decide +kernel

/-- "or" does not go with squares of weights, and the polarizations are gone when that is noticed. -/
theorem unpack_counterexample : ∃ a : Obj ℚ, (toWaterfall noRoot .or false true a).2 = some .unpack ∧
    a.pols.length = 2 ∧ (toWaterfall noRoot .or false true a).1.pols.length = 1 := by
  refine ⟨flags 2 true, ?_, ?_, ?_⟩ <;> decide +kernel

/-- After a waterfall with squares of weights polarizations cannot be collapsed. -/
theorem spoiled_counterexample : ∃ a : Obj ℚ, (toWaterfall noRoot .mean true true a).2 = none ∧
    (collapsePol noRoot .mean (toWaterfall noRoot .mean true true a).1).2 = some .check ∧
    (collapsePol noRoot .mean (toWaterfall noRoot .mean true true a).1).1.pols.length = 1 := by
  refine ⟨obs, ?_, ?_, ?_⟩ <;> decide +kernel

/-- Weights that are small are lost in steps and kept at once. -/
def tiny : Obj ℚ := { asMetric 1 true with data := .metric (fun _ _ _ _ => .fin 1) (fun _ _ _ _ => 4 / 10 ^ 11) }

theorem tiny_counterexample : ∃ a : Obj ℚ, a = tiny ∧
    (done (combine noRoot .mean a [a, a])).bind (fun o => entryAt o 0 0 0 0) = some (12 / 10 ^ 11, .fin 1) ∧
    ((done (combine noRoot .mean a [a])).bind (fun x => done (combine noRoot .mean x [a]))).bind
      (fun o => entryAt o 0 0 0 0) = some (4 / 10 ^ 11, .inf false) := by
  refine ⟨_, rfl, ?_, ?_⟩ <;> decide +kernel

end Verif.FlagMet
