import Verif.CalH5.Props
import Verif.CalSelect.Examples

/-! Cases of the theorems, and what fails without their hypotheses. -/
namespace Verif.CalH5
open Verif.Np Verif.CalAdd Verif.CalSelect

/-- What an object shows: labels, and the values on the channels for the first antenna, the first time and the first component. -/
structure View where
  ants : List Int
  freq : List ℚ
  times : List ℚ
  spws : List Int
  jones : List Int
  vals : List Nat
  deriving DecidableEq

def view (o : Obj ℚ ℚ Nat Nat) : View :=
  ⟨o.ants, o.freq, o.keys, o.spws, o.jones, (List.range (if o.wide then o.spws.length else o.freq.length)).map (fun f => o.data 0 f 0 0)⟩

def seen (r : Except Err (Obj ℚ ℚ Nat Nat × Bool)) : Option (View × Bool) :=
  match r with
  | .error _ => none
  | .ok r => some (view r.1, r.2)

theorem seen_ok {r : Except Err (Obj ℚ ℚ Nat Nat × Bool)} {v : View × Bool} (h : seen r = some v) : ∃ o, r = .ok (o, v.2) := by
  cases r with
  | error e => cases h
  | ok r =>
    have h := Option.some.inj h
    subst h
    exact ⟨r.1, rfl⟩

def req : CalSelect.Req ℚ := { antNums := some [5], chans := some [2, 3], jones := some [.str ['x']] }

/-- One antenna, one window, one component. -/
theorem part_seen : seen (read ctx true (write id sample) req) = some (⟨[5], [20, 21], [1, 2], [1], [-5], [1200, 1300]⟩, true) := by decide +kernel

theorem req_exists : ChansExist sample req := by
  intro ch h
  obtain rfl : [2, 3] = ch := Option.some.inj h
  decide

/-- A case of `part_partial`. -/
example : ∃ o', read ctx true (write id sample) req = .ok (o', true) ∧ ∃ s, Stored id sample s ∧ ∃ A T F W J, Kept ctx sample req A T F W J ∧ Cut s o' A T F W J := by
  obtain ⟨o', h⟩ := seen_ok part_seen
  exact ⟨o', h, part_partial id ctx sample o' req sample_fits (by decide) req_exists (fun _ => by decide) h⟩

/-- A case of `part_succeeds_partial`. -/
example : ∃ o', read ctx true sample req = .ok (o', true) :=
  part_succeeds_partial ctx sample _ req sample_fits (by decide) req_exists (Prod.ext rfl (by decide +kernel)) (by decide +kernel) (by decide +kernel)
    (by decide +kernel) (by decide +kernel) (fun _ => by decide +kernel)

/-- Everything is asked for by name: the whole file is read. -/
example : seen (read ctx true sample { antNums := some [5, 7], jones := some [.num (-6), .num (-5)] }) =
    some (⟨[7, 5], [10, 11, 20, 21], [1, 2], [0, 1], [-5, -6], [0, 100, 200, 300]⟩, true) := by decide +kernel

/-- C208: all channels, one of them counted from the end, and one antenna: the frequencies are in another order than the gains. -/
theorem from_end_counterexample : seen (read ctx true sample { antNums := some [5], chans := some [-1, 0, 1, 2] }) =
      some (⟨[5], [21, 10, 11, 20], [1, 2], [0, 1], [-5, -6], [1000, 1100, 1200, 1300]⟩, true) ∧
    view (select ctx sample { antNums := some [5], chans := some [-1, 0, 1, 2] }).1 =
      ⟨[5], [21, 10, 11, 20], [1, 2], [0, 1], [-5, -6], [1300, 1000, 1100, 1200]⟩ := by
  constructor <;> decide +kernel

/-- One channel more than there are, as one is named twice: there are more frequencies than gains. -/
theorem twice_counterexample : (seen (read ctx true sample { antNums := some [5], chans := some [-1, 0, 1, 2, 3] })).map (fun v => v.1.freq) =
    some [21, 10, 11, 20, 21] := by decide +kernel

/-- One channel. -/
def single : Obj ℚ ℚ Nat Nat := { sample with freq := [10], ids := [0], width := [1], spws := [0] }

/-- C208: a channel that does not exist in a file with one channel: the one that exists is read, though `select` refuses. -/
theorem absent_channel_counterexample : seen (read ctx true single { chans := some [5] }) = some (⟨[7, 5], [10], [1, 2], [0], [-5, -6], [0]⟩, true) ∧
    (select ctx single { chans := some [5] }).2 = some .index := by
  constructor <;> decide +kernel

/-- A window without channels. -/
def gap : Obj ℚ ℚ Nat Nat := { sample with spws := [0, 1, 2] }

/-- If all channels are asked for, the window stays when a file is read, and goes when a selection is made. -/
theorem unused_window_counterexample : (seen (read ctx true gap { chans := some [0, 1, 2, 3] })).map (fun v => v.1.spws) = some [0, 1, 2] ∧
    (select ctx gap { chans := some [0, 1, 2, 3] }).1.spws = [0, 1] := by
  constructor <;> decide +kernel

/-- Antennas asked for without data: all are there. -/
example : seen (read ctx false sample { antNums := some [5] }) =
    some (⟨[7, 5], [10, 11, 20, 21], [1, 2], [0, 1], [-5, -6], [0, 100, 200, 300]⟩, false) := by decide +kernel

end Verif.CalH5
