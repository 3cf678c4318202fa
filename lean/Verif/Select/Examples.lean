import Verif.Select.Compose
import Mathlib.Algebra.Order.Ring.Rat
import Mathlib.Algebra.Field.Rat

/-! Cases that meet the hypotheses of C34 and C35, and the requests for which the documented effect does not hold. -/
namespace Verif.Select
open Verif.Np Verif.TimeSel
open Verif.Pol (Str)

deriving instance DecidableEq for Except

/-- A telescope with antennas 0, 1, 2; baseline number `b` is the pair `(b / 10, b % 10)`. -/
def exC : Ctx ℚ where
  antNames := [(['a'], 0), (['b'], 1), (['c'], 2)]
  catalog := [(0, ['s']), (1, ['t'])]
  timeTols := (0, 1/10)
  lstTols := (0, 1/10)
  P := 6
  decode := fun b => (b / 10, b % 10)
  polNum := fun s => if s = ['x'] then some (-5) else if s = ['y'] then some (-6) else none
  conjPol := fun s => some s

/-- Rows (antennas, phase center): (0,1) 0, (0,2) 1, (0,1) 0, (1,2) 1, at times 1, 1, 2, 2. -/
def exO : Obj ℚ Nat Nat Nat where
  ant1 := [0, 0, 0, 1]
  ant2 := [1, 2, 1, 2]
  bl := [1, 2, 1, 12]
  times := [1, 1, 2, 2]
  lsts := [1, 1, 5, 5]
  pc := [0, 1, 0, 1]
  rest := [10, 11, 12, 13]
  freqs := [100, 101, 102]
  ids := [0, 0, 1]
  chRest := [7, 8, 9]
  spws := [0, 1]
  flexPol := none
  pols := [-5, -6]
  vis := some [[[0, 1], [2, 3], [4, 5]], [[10, 11], [12, 13], [14, 15]], [[20, 21], [22, 23], [24, 25]],
    [[30, 31], [32, 33], [34, 35]]]
  nblts := 4
  nfreqs := 3
  npols := 2
  nspws := 2
  nbls := 3
  ntimes := 2
  nants := 3

def exRows : List (Row ℚ Nat Nat) :=
  [⟨0, 1, 1, 1, 1, 0, 10, some [[0, 1], [2, 3], [4, 5]]⟩, ⟨0, 2, 2, 1, 1, 1, 11, some [[10, 11], [12, 13], [14, 15]]⟩,
   ⟨0, 1, 1, 2, 5, 0, 12, some [[20, 21], [22, 23], [24, 25]]⟩, ⟨1, 2, 12, 2, 5, 1, 13, some [[30, 31], [32, 33], [34, 35]]⟩]

theorem exTable : IsTable exO exRows where
  ant1 := by decide +kernel
  ant2 := by decide +kernel
  bl := by decide +kernel
  times := by decide +kernel
  lsts := by decide +kernel
  pc := by decide +kernel
  rest := by decide +kernel
  vis := Or.inr ⟨_, rfl, by decide +kernel⟩
  nblts := by decide +kernel

theorem exOneWay : OneWay exRows := by
  unfold OneWay
  decide +kernel

/-- Antennas 0 and 1, the requested pair given backwards, an LST range through 0, one frequency, one polarization. -/
def exQ : Req ℚ where
  antNums := some [1, 0]
  bls := some (.tuples [(1, 0, none)])
  times := ⟨none, none, none, some [4, 1/2]⟩
  freqs := some [101]
  pols := some [.str ['y']]

example : Angles exC exRows exQ := by
  intro lo hi h
  simp only [exQ, Option.some.injEq, List.cons.injEq, and_true] at h
  obtain ⟨rfl, rfl⟩ := h
  refine ⟨by decide +kernel, by decide +kernel, ?_⟩
  decide +kernel

example : preprocess exC exO exQ = .ok (some [2], some [1], some [1]) := by decide +kernel
example : ((select exC exO exQ).toOption.map (fun o => (o.vis, o.rest, o.nbls, o.spws))) =
    some (some [[[23]]], [12], 1, [0]) := by decide +kernel
example : ∀ r ∈ exRows, exC.decode r.bl = (r.ant1, r.ant2) := by decide +kernel
example : Shaped exO [[[0, 1], [2, 3], [4, 5]], [[10, 11], [12, 13], [14, 15]], [[20, 21], [22, 23], [24, 25]],
    [[30, 31], [32, 33], [34, 35]]] := ⟨by decide +kernel, by decide +kernel, by decide +kernel⟩
/-- Selecting by antenna name, catalog name, baseline number and channel number. -/
def exQ3 : Req ℚ where
  antNames := some [['a'], ['c'], ['b']]
  catNames := some [['t']]
  bls := some (.nums [12, 2])
  chans := some [-1, 1, 0]
example : preprocess exC exO exQ3 = .ok (some [1, 3], some [0, 1, 2], none) := by decide +kernel
/-- Nothing left, a missing antenna, a missing baseline, a missing frequency, an index out of range. -/
example : preprocess exC exO { antNums := some [0, 1], pcIds := some [1] } = .error .noRows := by decide +kernel
example : preprocess exC exO { antNums := some [0, 5] } = .error .antNum := by decide +kernel
example : preprocess exC exO { bls := some (.tuples [(1, 1, none)]) } = .error .blMissing := by decide +kernel
example : preprocess exC exO { freqs := some [99] } = .error .freq := by decide +kernel
example : preprocess exC exO { bltInds := some [4] } = .error .tooLarge := by decide +kernel

/-- A flex-pol object: window 0 has polarization -5, window 1 has -6. -/
def exFlex : Obj ℚ Nat Nat Nat := { exO with pols := [0], flexPol := some [-5, -6] }
example : preprocess exC exFlex { pols := some [.str ['y']] } = .ok (none, some [2], none) := by decide +kernel
example : AsksWindow exC exFlex [.str ['y']] := ⟨-6, Or.inr ⟨['y'], by simp, by decide⟩, by decide +kernel⟩
example : preprocess exC exFlex { pols := some [.str ['y']], freqs := some [100] } = .error .noData := by decide +kernel

/-! ### C35 -/

def exQ1 : Req ℚ where
  antNums := some [1, 0]
def exQ2 : Req ℚ where
  times := ⟨some [1], none, none, none⟩
example : RowOnly exQ1 ∧ RowOnly exQ2 :=
  ⟨⟨⟨rfl, rfl, rfl, by simp [exQ1]⟩, rfl⟩, ⟨⟨rfl, rfl, rfl, by simp [exQ2]⟩, rfl⟩⟩
example : Disjoint exQ1 exQ2 := ⟨.inl rfl, .inl rfl, .inr rfl, .inl rfl, .inl rfl, .inl rfl, .inl rfl, .inl rfl, .inl rfl⟩
example : ((select exC exO exQ1).toOption.map (fun o => o.rest)) = some [10, 12] := by decide +kernel
example : (((select exC exO exQ1) >>= fun o => select exC o exQ2).toOption.map (fun o => o.rest)) = some [10] := by
  decide +kernel
example : (((select exC exO exQ2) >>= fun o => select exC o exQ1).toOption.map (fun o => o.rest)) = some [10] := by
  decide +kernel
example : ((select exC exO (both exQ1 exQ2)).toOption.map (fun o => o.rest)) = some [10] := by decide +kernel

/-! ### Where the documentation is not met -/

/-- A pair whose rows occur in both directions. -/
def exMixed : Obj ℚ Nat Nat Nat :=
  { exO with ant1 := [0, 1, 0, 1], ant2 := [1, 0, 1, 2], bl := [1, 10, 1, 12] }

/-- C34: "the ordering of the numbers within the tuple does not matter" (lines 7182–7183), but with rows in both directions the
two orders keep different rows. -/
theorem select_pair_direction_counterexample :
    (preprocess exC exMixed { bls := some (.tuples [(0, 1, none)]) } = .ok (some [0, 2], none, none)) ∧
    (preprocess exC exMixed { bls := some (.tuples [(1, 0, none)]) } = .ok (some [1], none, none)) := by
  decide +kernel

/-- Two windows that overlap in frequency. -/
def exOver : Obj ℚ Nat Nat Nat := { exO with freqs := [100, 101, 101] }

/-- C34: `freq_chans=[1]` keeps channel 2 as well when it has the same frequency as channel 1. -/
theorem select_freq_chans_counterexample :
    preprocess exC exOver { chans := some [1] } = .ok (none, some [1, 2], none) := by decide +kernel

/-- C34: an empty list of frequencies or polarizations gives an object without channels or polarizations. -/
theorem select_empty_counterexample :
    ((select exC exO { freqs := some [] }).toOption.map (fun o => (o.freqs, o.nfreqs, o.vis))) =
      some ([], 0, some [[], [], [], []]) ∧
    ((select exC exO { pols := some [] }).toOption.map (fun o => (o.pols, o.npols))) = some ([], 0) := by
  decide +kernel

/-- C34: one channel out of each of two windows cannot be selected, nor can a frequency be named twice. -/
theorem select_one_per_window_counterexample :
    (∀ f ∈ [(100 : ℚ), 102], f ∈ exO.freqs) ∧ preprocess exC exO { freqs := some [100, 102] } = .error .spacing ∧
    preprocess exC exO { chans := some [0, 2] } = .error .spacing ∧
    preprocess exC exO { freqs := some [101, 101] } = .error .spacing :=
  ⟨by decide +kernel, by decide +kernel, by decide +kernel, by decide +kernel⟩

/-- The channels 0, 2 are the ones a request for 100 and 102 is about. -/
example : (∀ f ∈ [(100 : ℚ), 102], f ∈ exO.freqs) ∧ [0, 2].Pairwise (· < ·) ∧
    ∀ i, i ∈ [0, 2] ↔ ∃ f, exO.freqs[i]? = some f ∧ f ∈ [(100 : ℚ), 102] := by
  refine ⟨by decide +kernel, by decide, ?_⟩
  intro i
  match i with
  | 0 => simp [exO]
  | 1 => simp [exO]
  | 2 => simp [exO]
  | n + 3 => simp [exO]

/-- C34: a polarization named in only one of the `bls` tuples replaces the `polarizations` argument without an error. -/
theorem select_bls_pols_counterexample :
    preprocess exC exO { bls := some (.tuples [(0, 1, some ['x']), (0, 2, none)]), pols := some [.str ['y']] } =
      .ok (some [0, 1, 2], none, some [0]) := by decide +kernel

/-- C35 fails for `blt_inds`, which are positions in the object at hand. -/
theorem select_blt_inds_counterexample :
    (((select exC exO { bltInds := some [0, 1] }) >>= fun o => select exC o { pcIds := some [1] }).toOption.map
      (fun o => o.rest)) = some [11] ∧
    (((select exC exO { pcIds := some [1] }) >>= fun o => select exC o { bltInds := some [0, 1] }).toOption.map
      (fun o => o.rest)) = some [11, 13] := by decide +kernel

/-- Rows (0,1) at time 2, (1,0) at 1, (0,2) at 1, (1,2) at 1. -/
def exMixed2 : Obj ℚ Nat Nat Nat :=
  { exO with ant1 := [0, 1, 0, 1], ant2 := [1, 0, 2, 2], bl := [1, 10, 2, 12], times := [2, 1, 1, 1] }
def exQ4 : Req ℚ where
  bls := some (.tuples [(0, 1, none), (0, 2, none)])

/-- C35 fails for `bls` if a pair occurs in both directions. -/
theorem select_bls_counterexample :
    ((select exC exMixed2 exQ4 >>= fun o => select exC o exQ2).toOption.map (fun o => o.rest)) = some [12] ∧
    ((select exC exMixed2 exQ2 >>= fun o => select exC o exQ4).toOption.map (fun o => o.rest)) = some [11, 12] := by
  decide +kernel

end Verif.Select
