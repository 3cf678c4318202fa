import Verif.FlagSel.Kept

/-! Concrete cases for the theorems, and requests that do not do what they seem to. -/

namespace Verif.FlagSel.Examples
open Verif.FlagSel
open Verif.Pol (Str)
open Verif.Select (PolReq)

def xx : Str := ['x', 'x']
def yy : Str := ['y', 'y']
def xy : Str := ['x', 'y']
def yx : Str := ['y', 'x']

def ctx : Ctx where
  parse := fun s => if s = ['1'] then .ok (some [(1, 2, none)], none) else .error .antStr
  polNum := fun s => if s = xx then some (-5) else if s = yy then some (-6) else if s = xy then some (-7)
    else if s = yx then some (-8) else none
  conjPol := fun s => if s = xx then some xx else if s = yy then some yy else if s = xy then some yx
    else if s = yx then some xy else none

def row (a b t : Int) : Row Int := ⟨a, b, 2048 * a + b, t, 10 * t⟩

/-- Two times of the baselines 1-2, 1-3 and 2-2, three channels in two windows, two polarizations. -/
def base : Obj Int Int where
  ty := .baseline
  rows := [row 1 2 5, row 1 3 5, row 2 2 5, row 1 2 6, row 1 3 6, row 2 2 6]
  ants := []
  freq := [100, 101, 200]
  width := some [1, 1, 2]
  ids := some [7, 7, 8]
  spws := [8, 7]
  pols := [.num (-5), .num (-7)]
  data := [fun a r f p => 1000 * a + 100 * r + 10 * f + p, fun _ r f p => - (100 * r + 10 * f + p)]
  nblts := 6
  nbls := 3
  nants := 3
  ntimes := 2
  nfreqs := 3
  npols := 2
  nspws := 2

/-- Three antennas at two times. -/
def antObj : Obj Int Int where
  ty := .antenna
  rows := [row 0 0 5, row 0 0 6]
  ants := [4, 2, 9]
  freq := [100]
  width := some [1]
  ids := none
  spws := [0]
  pols := [.num (-5)]
  data := [fun a r f p => 1000 * a + 100 * r + 10 * f + p]
  nblts := 0
  nbls := 0
  nants := 3
  ntimes := 2
  nfreqs := 1
  npols := 1
  nspws := 1

def summary (o : Obj Int Int) : List Int × List Int × List Int × List PolReq :=
  (o.rows.map (·.bl), o.rows.map (·.time), o.freq, o.pols)

def values (o : Obj Int Int) (na nr nf np : Nat) : List (List Int) :=
  o.data.map (fun x => (List.range na).flatMap (fun a => (List.range nr).flatMap (fun r =>
    (List.range nf).flatMap (fun f => (List.range np).map (fun p => x a r f p)))))

def req : Req Int := { bls := some [(2, 1, none), (2, 2, none)], times := some [6], chans := some [-1], pols := some [.str xx] }

example : Counts base := ⟨by decide +kernel, by decide +kernel, by decide +kernel, by decide +kernel, by decide +kernel,
  by decide +kernel, by decide +kernel, by decide +kernel, by decide +kernel, by decide +kernel,
  fun _ => ⟨by decide +kernel, [7, 7, 8], rfl, by intro x; simp [base]; tauto⟩⟩
example : (select ctx base req).2 = none := by decide +kernel
example : summary (select ctx base req).1 = ([2048 + 2, 4096 + 2], [6, 6], [200], [.num (-5)]) := by decide +kernel
example : values (select ctx base req).1 1 2 1 1 = [[320, 520], [-320, -520]] := by decide +kernel
example : (select ctx base req).1.spws = [8] := by decide +kernel
example : (select ctx base req).1.nants = 2 := by decide +kernel

/-- The theorem on what is kept applies to this request. -/
example : ∃ lr lf lp la, Cut base (select ctx base req).1 la lr lf lp := by
  have hc : Counts base := ⟨by decide +kernel, by decide +kernel, by decide +kernel, by decide +kernel, by decide +kernel,
    by decide +kernel, by decide +kernel, by decide +kernel, by decide +kernel, by decide +kernel,
    fun _ => ⟨by decide +kernel, [7, 7, 8], rfl, by intro x; simp [base]; tauto⟩⟩
  obtain ⟨la, lr, lf, lp, h, -⟩ := kept ctx base (select ctx base req).1 req hc
    (Prod.ext rfl (by decide +kernel : (select ctx base req).2 = none))
  exact ⟨lr, lf, lp, la, h⟩

/-- ... and so does the one on requests that are met. -/
example : Fits ctx base req := (accepts_iff ctx base req).1 (by decide +kernel)
example : ¬ Fits ctx base { req with times := some [6, 7] } := fun h => by
  have := (accepts_iff ctx base _).2 h
  revert this
  decide +kernel
example : (select ctx base { times := some [6, 7] }).2 = some .time := by decide +kernel
example : (select ctx base { times := some [5], bltInds := some [3] }).2 = some .noRows := by decide +kernel
example : (select ctx base { bltInds := some [-1] }).2 = some .negative := by decide +kernel
example : (select ctx base { bls := some [(3, 2, none)] }).2 = some .blMissing := by decide +kernel
example : (select ctx base { antStr := some ['1'] }).2 = none := by decide +kernel
example : (select ctx base { antStr := some ['1'], antNums := some [1] }).2 = some .both := by decide +kernel

/-- Antennas come in the order in which they are asked for. -/
example : (select ctx antObj { antNums := some [9, 4] }).1.ants = [9, 4] := by decide +kernel
example : values (select ctx antObj { antNums := some [9, 4] }).1 2 2 1 1 = [[2000, 2100, 0, 100]] := by decide +kernel
example : (select ctx antObj { antInds := some [-1, 0] }).1.ants = [9, 4] := by decide +kernel

/-! ## Requests that do not do what they seem to -/

/-- An antenna that is named twice is there twice. -/
theorem twice_counterexample : (select ctx antObj { antNums := some [2, 2] }).1.ants = [2, 2] ∧
    (select ctx antObj { antNums := some [2, 2] }).1.nants = 2 :=
  ⟨by decide +kernel, by decide +kernel⟩

/-- The only channel of an object cannot be selected by its position. -/
theorem oneChannel_counterexample : (select ctx antObj { chans := some [0] }).2 = some .chanIndex ∧
    (select ctx antObj { freqs := some [100] }).2 = none :=
  ⟨by decide +kernel, by decide +kernel⟩

/-- A wrong position of an antenna raises after the times are cut, and the arrays are not: the object is spoiled. -/
theorem spoiled_counterexample : (select ctx antObj { antInds := some [3], times := some [6] }).2 = some .antIndex ∧
    (select ctx antObj { antInds := some [3], times := some [6] }).1.rows = [row 0 0 6] ∧
    values (select ctx antObj { antInds := some [3], times := some [6] }).1 1 1 1 1 = [[0]] ∧
    values (select ctx antObj { times := some [6] }).1 1 1 1 1 = [[100]] :=
  ⟨by decide +kernel, by decide +kernel, by decide +kernel, by decide +kernel⟩

/-- Positions of antennas are ignored by objects of type "baseline", and if antennas are named. -/
theorem antInds_counterexample : (select ctx base { antInds := some [99] }).2 = none ∧
    (select ctx base { antInds := some [99] }).1.rows = base.rows ∧
    (select ctx antObj { antNums := some [2], antInds := some [0] }).1.ants = [2] :=
  ⟨by decide +kernel, by decide +kernel, by decide +kernel⟩

/-- A polarization in one of the pairs overrides those that are asked for separately, though the same in all pairs is
refused. -/
theorem overridden_counterexample :
    (select ctx base { bls := some [(1, 2, some xx), (1, 3, none)], pols := some [.num (-7)] }).2 = none ∧
    (select ctx base { bls := some [(1, 2, some xx), (1, 3, none)], pols := some [.num (-7)] }).1.pols = [.num (-5)] ∧
    (select ctx base { bls := some [(1, 2, some xx)], pols := some [.num (-7)] }).2 = some .blPols :=
  ⟨by decide +kernel, by decide +kernel, by decide +kernel⟩

/-- Polarizations that were combined cannot be selected by the name they have. -/
theorem collapsed_counterexample :
    (select ctx { antObj with pols := [.str ['5', ',', '6']] } { pols := some [.str ['5', ',', '6']] }).2 = some .pol := by
  decide +kernel

end Verif.FlagSel.Examples
