import Verif.CalSelect.Whole
import Mathlib.Algebra.Order.Ring.Rat
import Mathlib.Algebra.Field.Rat

/-! Cases of the theorems, and what fails without their hypotheses. -/
namespace Verif.CalSelect
open Verif.Np Verif.FreqSort Verif.CalAdd

/-- Two antennas, two windows of two channels, two times with centers 3 and 4, two components. -/
def sample : Obj ℚ ℚ Nat Nat where
  wide := false
  delay := false
  ranged := false
  ants := [7, 5]
  freq := [10, 11, 20, 21]
  ids := [0, 0, 1, 1]
  width := [1, 1, 1, 1]
  ranges := []
  spws := [0, 1]
  flexJones := none
  times := [⟨1, none, some 3, none, 1⟩, ⟨2, none, some 4, none, 2⟩]
  jones := [-5, -6]
  data := fun a f t j => 1000 * a + 100 * f + 10 * t + j
  quality := none
  total := none

/-- The same with one component in each window. -/
def flexed : Obj ℚ ℚ Nat Nat := { sample with jones := [0], flexJones := some [-5, -6] }

def ctx : Ctx ℚ ℚ := ⟨[(['a'], 5), (['b'], 7)], some [(3, ['s']), (4, ['t'])], (0, 0), (0, 0), 24, id, id, fun s => if s = ['x'] then some (-5) else none⟩

theorem sample_fits : Fits sample := ⟨rfl, rfl, fun x h => (nomatch h), fun h => absurd rfl h⟩

/-- The labels of an object, one value, and the error. -/
structure View where
  ants : List Int
  freq : List ℚ
  times : List ℚ
  spws : List Int
  jones : List Int
  first : Nat
  err : Option Err
  deriving DecidableEq

def view (r : Obj ℚ ℚ Nat Nat × Option Err) : View := ⟨r.1.ants, r.1.freq, r.1.keys, r.1.spws, r.1.jones, r.1.data 0 0 0 0, r.2⟩

/-- Antennas by name, a frequency and a channel, a catalog name, a component by name. -/
example : view (select ctx sample { antNames := some [['a']], freqs := some [11], chans := some [0], catNames := some [['t']], jones := some [.str ['x']] }) =
    ⟨[5], [10, 11], [2], [0], [-5], 1010, none⟩ := by decide +kernel

/-- Windows are added to the channels that are asked for. -/
example : view (select ctx sample { chans := some [1], spws := some [1] }) =
    ⟨[7, 5], [11, 20, 21], [1, 2], [0, 1], [-5, -6], 100, none⟩ := by
  decide +kernel

/-- A component that only a window has. -/
example : view (select ctx flexed { jones := some [.num (-6)] }) =
    ⟨[7, 5], [20, 21], [1, 2], [1], [0], 200, none⟩ := by decide +kernel

/-- A case of `kept_partial`. -/
example : ∃ o', select ctx sample { antNums := some [5] } = (o', none) ∧ ∃ A T F W J, Kept ctx sample { antNums := some [5] } A T F W J ∧ Cut sample o' A T F W J :=
  ⟨_, Prod.ext rfl (by decide +kernel), kept_partial _ _ _ _ sample_fits (by decide +kernel) (fun _ h => nomatch h) (Prod.ext rfl (by decide +kernel))⟩

theorem request_sound : Sound sample ({ antNums := some [5], spws := some [1], jones := some [.num (-8)] } : Req ℚ) :=
  ⟨by simp, by simp, ⟨by simp, by simp⟩, ⟨rfl, rfl⟩, by simp, by simp, ⟨by simp, fun ch h => nomatch h⟩, fun _ ws h => by
    obtain rfl : [1] = ws := Option.some.inj h.1
    exact ⟨1, by simp, by decide⟩⟩

/-- A case of `whole_partial`: the component does not exist. -/
example : (select ctx sample { antNums := some [5], spws := some [1], jones := some [.num (-8)] }).2 = some .jones ∧
    (select ctx sample { antNums := some [5], spws := some [1], jones := some [.num (-8)] }).1 = sample :=
  ⟨by decide +kernel, whole_partial ctx sample _ _ .jones sample_fits request_sound (Prod.ext rfl (by decide +kernel))⟩

/-- A case of `unchanged`. -/
example : (select ctx sample { antNums := some [6] }).1 = sample := unchanged ctx sample _ _ .antNum (Prod.ext rfl (by decide +kernel)) (by simp) (by simp)

/-- Phase centers that no time has: the error comes when the antennas are gone already. -/
theorem centers_counterexample : view (select ctx sample { antNums := some [5], pcIds := some [9] }) =
    ⟨[5], [10, 11, 20, 21], [1, 2], [0, 1], [-5, -6], 1000, some .take⟩ := by decide +kernel

/-- The same for a window that does not exist. -/
theorem window_counterexample : view (select ctx sample { antNums := some [5], spws := some [9] }) =
    ⟨[5], [10, 11, 20, 21], [1, 2], [0, 1], [-5, -6], 1000, some .take⟩ := by decide +kernel

/-- The same for a channel that does not exist. -/
theorem channel_counterexample : view (select ctx sample { antNums := some [5], chans := some [4] }) =
    ⟨[5], [10, 11, 20, 21], [1, 2], [0, 1], [-5, -6], 1000, some .index⟩ := by decide +kernel

/-- A window that does not exist is passed over, if another one does. -/
theorem absent_window_counterexample : view (select ctx sample { spws := some [1, 9] }) =
    ⟨[7, 5], [20, 21], [1, 2], [1], [-5, -6], 200, none⟩ := by decide +kernel

/-- One channel of each window cannot be selected. -/
theorem one_each_counterexample : (select ctx sample { chans := some [1, 2] }).2 = some .spacing := by decide +kernel

/-- Channels counted from the end change the order; one of them can be taken twice. -/
theorem negative_counterexample : (select ctx sample { chans := some [-1, 2] }).1.freq = [21, 20] ∧ (select ctx sample { chans := some [-1, 3] }).1.freq = [21, 21] := by
  constructor <;> decide +kernel

/-- Components of the Jones axis are not removed if another one is only that of a window. -/
theorem mixed_counterexample : view (select ctx { flexed with jones := [-8, -7] } { jones := some [.num (-8), .num (-6)] }) =
    ⟨[7, 5], [20, 21], [1, 2], [1], [-8, -7], 200, none⟩ := by decide +kernel

end Verif.CalSelect
