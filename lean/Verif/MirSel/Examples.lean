import Verif.MirSel.More

/-! # Concrete cases, and what selections do not do -/

namespace Verif.MirSel.Examples
open Verif.MirSel

/-- A row with the fields given. -/
def row (l : List (Name × ℤ)) : Row ℤ := fun n => (l.filter (fun x => x.1 = n)).map (fun x => x.2)

def tab (fs : List Name) (l : List (List ℤ)) : Tab ℤ := ⟨fun n => decide (n ∈ fs), l.map (fun v => (row (fs.zip v), true))⟩

/-- Two integrations, three antennas, two baselines in each integration with one spectrum each, and autocorrelations. -/
def s₀ : St ℤ where
  inn := tab [.inhid, .ints, .isource, .mjd] [[1, 10, 1, 100], [2, 20, 2, 200]]
  bl := tab [.blhid, .inhid, .iant1, .iant2] [[1, 1, 1, 2], [2, 1, 1, 3], [3, 2, 1, 2], [4, 2, 1, 3]]
  sp := tab [.blhid, .inhid, .iband, .corrchunk, .correlator] [[1, 1, 0, 0, 1], [2, 1, 0, 0, 1], [3, 2, 1, 1, 1], [4, 2, 1, 1, 1]]
  eng := tab [.antenna, .inhid] [[1, 1], [2, 1], [3, 1], [1, 2], [2, 2], [3, 2]]
  we := tab [.ints] [[10], [20]]
  ac := tab [.antenna, .inhid] [[1, 1], [2, 1], [3, 1], [1, 2], [2, 2], [3, 2]]
  cross := true
  auto := false
  fileInts := [1, 2]
  codes := [(.source, ['a'], 1), (.source, ['b'], 2), (.band, ['c', '1'], 0), (.band, ['s', '1'], 1),
    (.tel1, ['1'], 1), (.tel2, ['2'], 2), (.tel2, ['3'], 3)]

/-- The identifiers of the spectra that are kept. -/
def ids (t : Tab ℤ) (n : Name) : List ℤ := t.kept.flatMap (fun r => r n)

def out (t : Except Err (St ℤ)) : Option (List ℤ) := match t with
  | .ok s => some (ids s.sp .blhid)
  | .error _ => none

def isSource (c : Char) : Cond ℤ := ⟨.source, .eq, [], [[c]]⟩
def isAnt (l : List ℤ) : Cond ℤ := ⟨.ant, .eq, l, []⟩
def isTel2 (c : Char) : Cond ℤ := ⟨.tel2, .eq, [], [[c]]⟩

example : Weather s₀ := by
  intro x hx
  simp only [s₀, tab, List.map_cons, List.map_nil, List.mem_cons, List.not_mem_nil, or_false] at hx
  rcases hx with rfl | rfl
  · exact ⟨(row ([.ints].zip [10]), true), by simp [s₀, tab], by decide +kernel⟩
  · exact ⟨(row ([.ints].zip [20]), true), by simp [s₀, tab], by decide +kernel⟩

example : out (select s₀ (some (.list [isSource 'a'])) true true false) = some [1, 2] := by decide +kernel
example : out (select s₀ (some (.list [isSource 'a', isAnt [1, 3]])) true true false) = some [2] := by decide +kernel
example : out (select s₀ (some (.list [⟨.mjd, .gt, [150], []⟩, isTel2 '2'])) true true false) = some [3] := by decide +kernel
example : out (select s₀ (some (.one (isAnt [1, 2]))) true true false) = some [1, 3] := by decide +kernel
/-- Two selections after each other, as in `select_twice`. -/
example : (match select s₀ (some (.list [isSource 'b'])) true true false with
    | .ok s₁ => out (select s₁ (some (.list [isAnt [1, 3]])) true true false)
    | .error _ => none) = some [4] := by decide +kernel
/-- After a selection, one with `reset`, as in `select_reset`. -/
example : (match select s₀ (some (.list [isSource 'b'])) true true false with
    | .ok s₁ => out (select s₁ (some (.list [isAnt [1, 3]])) true true true)
    | .error _ => none) = some [2, 4] := by decide +kernel
/-- What `select_accepts` refuses. -/
example : out (select s₀ (some (.list [⟨.source, .gt, [], [['a']]⟩])) true true false) = none := by decide +kernel
example : out (select s₀ (some (.list [⟨.mjd, .between, [1], []⟩])) true true false) = none := by decide +kernel
example : out (select s₀ (some (.list [])) true true false) = none := by decide +kernel
/-- Names that are unknown, as in `unknown_counterexample`. -/
example : Unknown s₀ .blcd ∧ Unknown s₀ .lstRange ∧ Unknown s₀ (.other ['x']) := by
  refine ⟨?_, ?_, ?_⟩ <;> (unfold Unknown; decide +kernel)
example : out (select s₀ (some (.list [isSource 'a', ⟨.other ['x'], .bad, [], []⟩])) true true false) = some [1, 2] := by decide +kernel
/-- `read_mir`. -/
example : out (readMir s₀ 1 {}) = some [3, 4] := by decide +kernel
example : out (readMir s₀ 1 { pseudoCont := true, antennaNums := some ⟨[1, 2], []⟩ }) = some [1, 3] := by decide +kernel
example : out (readMir s₀ 1 { pseudoCont := true, bls := some ⟨[], [['1', '-', '2']]⟩ }) = some [1, 2, 3, 4] := by decide +kernel
example : out (readMir s₀ 1 { pseudoCont := true, lstRange := some ⟨[0, 1], []⟩ }) = some [1, 2, 3, 4] := by decide +kernel
example : out (readMir s₀ 1 { corrchunk := some ⟨[0], []⟩, timeRange := some ⟨[50, 250], []⟩ }) = some [1, 2] := by decide +kernel

/-- Conditions on different tables that are to be combined by "or" are all required: no spectrum of source "a" and
none of the baseline to antenna 2 is kept but the one which is both, though three meet one of the conditions. -/
theorem or_tables_counterexample : out (select s₀ (some (.list [isSource 'a', isTel2 '2'])) false true false) = some [1] := by
  decide +kernel

/-- With `and_mask=False`, a second selection is to add records. Spectra 1 and 3 of antennas 1 and 2 are kept by the first, and
the second, of source "a", loses spectrum 3. -/
theorem or_mask_counterexample : out (select s₀ (some (.list [isAnt [1, 2]])) true true false) = some [1, 3] ∧
    (match select s₀ (some (.list [isAnt [1, 2]])) true true false with
    | .ok s₁ => out (select s₁ (some (.list [isSource 'a'])) true false false)
    | .error _ => none) = some [1, 2] := by
  constructor <;> decide +kernel

/-- The autocorrelations of integrations that are not selected stay. -/
theorem auto_stays_counterexample : (match select { s₀ with auto := true } (some (.list [isSource 'a'])) true true false with
    | .ok s => some (ids s.inn .inhid, ids s.ac .inhid)
    | .error _ => none) = some ([1], [1, 1, 1, 2, 2, 2]) := by decide +kernel

end Verif.MirSel.Examples
