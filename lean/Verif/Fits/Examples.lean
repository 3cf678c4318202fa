import Verif.Fits.Partial
import Verif.Fits.Params
import Mathlib.Tactic.NormNum

/-!
Concrete cases for C107–C110.
-/
namespace Verif.Fits

/-- Two windows of two channels, and two polarizations that are not in the order of the file. -/
def obj2 : Obj ℚ where
  nblts := 1
  freqs := [100, 101, 210, 208]
  widths := [1, 1, 2, 2]
  spws := [0, 1]
  chanSpw := [0, 0, 1, 1]
  pols := [-6, -5]
  data := fun _ k p => (k + 10 * p, 1)
  flags := fun _ k _ => decide (k = 1)
  nsamp := fun _ k _ => if k = 3 then 0 else 1

def fileOf (o : Obj ℚ) : Option (File ℚ) :=
  match write id o with
  | .ok f => some f
  | .error _ => none

def errOf (o : Obj ℚ) : Option WErr :=
  match write id o with
  | .ok _ => none
  | .error e => some e

def spErr (ftol wtol : ℚ) (o : Obj ℚ) : Option WErr :=
  match spacing ftol wtol o with
  | .ok _ => none
  | .error e => some e

def labels (o : Obj ℚ) : List ℚ × List ℚ × List Int × List Int := (o.freqs, o.widths, o.chanSpw, o.pols)

/-- The object is written, and labels and values come back; the channel without samples comes back flagged. -/
example : spErr 0 0 obj2 = none ∧ (fileOf obj2).map (fun f => labels (read f)) = some ([100, 101, 210, 208], [1, 1, 2, 2], [0, 0, 1, 1], [-5, -6]) ∧
    (fileOf obj2).map (fun f => ((read f).data 0 2 0, (read f).flags 0 1 0, (read f).flags 0 2 0, (read f).flags 0 3 0)) =
      some ((12, 1), true, false, true) ∧ polOrder obj2.pols = [1, 0] := by
  decide +kernel

/-- The same channels, with the windows listed the other way round. -/
def objSwapped : Obj ℚ := { obj2 with spws := [1, 0] }

/-- C107: an object whose list of windows is not in the order of its channels passes the checks, and its channels come back with the frequencies of
the other window. -/
theorem windows_counterexample :
    spErr 0 0 objSwapped = none ∧ (fileOf objSwapped).map (fun f => labels (read f)) = some ([210, 208, 100, 101], [2, 2, 1, 1], [0, 0, 1, 1], [-5, -6]) ∧
    (fileOf objSwapped).map (fun f => ((read f).data 0 0 0, (read f).data 0 3 0)) = some (objSwapped.data 0 0 1, objSwapped.data 0 3 1) ∧
    objSwapped.freqs = [100, 101, 210, 208] := by
  decide +kernel

/-- One window with frequencies that go down. -/
def objDown : Obj ℚ where
  nblts := 1
  freqs := [102, 101, 100]
  widths := [1, 1, 1]
  spws := [0]
  chanSpw := [0, 0, 0]
  pols := [-5]
  data := fun _ k _ => (k, 0)
  flags := fun _ _ _ => false
  nsamp := fun _ _ _ => 1

/-- C107: the widths of one window with frequencies that go down come back negative, and what is read cannot be written again. -/
theorem widths_counterexample :
    spErr 0 0 objDown = none ∧ (fileOf objDown).map (fun f => labels (read f)) = some ([102, 101, 100], [-1, -1, -1], [0, 0, 0], [-5]) ∧
    (fileOf objDown).map (fun f => spErr 0 0 (read f)) = some (some .width) := by
  decide +kernel

/-- Windows that are numbered 3 and 5 come back as 0 and 1. -/
theorem window_numbers_counterexample :
    (fileOf { obj2 with spws := [3, 5], chanSpw := [3, 3, 5, 5] }).map (fun f => (read f).spws) = some [0, 1] := by
  decide +kernel

/-- C107: with a negative number of samples, what is flagged comes back as not flagged. -/
theorem negative_samples_counterexample :
    (fileOf { obj2 with nsamp := fun _ _ _ => -1 }).map (fun f => ((read f).flags 0 1 0, (read f).flags 0 0 0)) = some (false, true) ∧
    obj2.flags 0 1 1 = true ∧ obj2.flags 0 0 1 = false := by
  decide +kernel

/-- C108: what is refused. -/
example : errOf { obj2 with pols := [-5, -6, -8] } = some .pols ∧ errOf { obj2 with chanSpw := [0, 0, 0, 1] } = some .sizes ∧
    errOf { obj2 with freqs := [0, 1, 210, 208] } = some .negative ∧ spErr 0 0 { obj2 with chanSpw := [0, 1, 0, 1] } = some .interspersed ∧
    spErr 0 0 { obj2 with freqs := [100, 102, 210, 208] } = some .width := by
  decide +kernel

/-- The file of an object with two windows of two channels. -/
def file2 : File ℚ where
  nblts := 2
  nspws := 2
  nchan := 2
  npols := 1
  polVal := -5
  polDelta := 1
  refFreq := 100
  freqDelta := 1
  table := some ([0, 110], [1, 2])
  groups := fun b w c _ => (b + 10 * w + 100 * c, 0, 1)

def partOf (f : File ℚ) (bi fi pi : Option (List Nat)) : Except PErr (List ℚ × List ℚ) :=
  match partRead f bi fi pi with
  | .ok o => .ok (o.freqs, (List.range o.nblts).flatMap fun b => (List.range o.freqs.length).map fun k => (o.data b k 0).1)
  | .error e => .error e

def freqsOf (f : File ℚ) (bi fi pi : Option (List Nat)) : Option (List ℚ × List ℚ) :=
  match partOf f bi fi pi with
  | .ok x => some x
  | .error _ => none

def perrOf (f : File ℚ) (bi fi pi : Option (List Nat)) : Option PErr :=
  match partOf f bi fi pi with
  | .ok _ => none
  | .error e => some e

/-- C109: the first window is asked for, and both are read; with one of the rows it is refused, and so is one channel. -/
theorem part_counterexample :
    freqsOf file2 none (some [0, 1]) none = some ([100, 101, 210, 212], [0, 100, 10, 110, 1, 101, 11, 111]) ∧
    perrOf file2 (some [1]) (some [0, 1]) none = some .assert ∧ perrOf file2 (some [1]) (some [0, 2]) none = some .shape ∧
    perrOf file2 none (some [0]) none = some .assert ∧ perrOf file2 none (some [3]) none = some .range := by
  decide +kernel

/-- A part of the rows of the file, and a part of a file with one window. -/
example : freqsOf file2 (some [1]) none none = some ([100, 101, 210, 212], [1, 101, 11, 111]) ∧
    freqsOf { file2 with nspws := 1, nchan := 3, table := none } (some [1]) (some [0, 2]) none = some ([100, 102], [1, 201]) := by
  decide +kernel

example : Good 2 (some [1]) ∧ Good 4 (some [0, 1]) ∧ Tabled file2 := by
  refine ⟨?_, ?_, ?_⟩
  · rintro l ⟨⟩; exact ⟨by simp, by simp, by simp⟩
  · rintro l ⟨⟩; exact ⟨by simp, by simp, by simp⟩
  · rintro ⟨⟩

/-! Rows, antennas and sources. -/

/-- Frames are numbers here: 0 is fk5, 1 is icrs and 2 is galactic. -/
def srcA : Src ℚ Nat := ⟨"3C286".toList, 1, 2, 1, none, none⟩
def srcB : Src ℚ Nat := ⟨"NGC1".toList, 3, 4, 1, none, none⟩

def par1 : Par ℚ Nat where
  times := [2457000, 2457001]
  ant1 := [0, 1]
  ant2 := [1, 1]
  srcIds := [0, 4]
  antNums := [0, 1]
  antNames := ["a".toList, "b!".toList]
  cat := [(0, srcA), (4, srcB)]

def sameQ (a b : Src ℚ Nat) : Bool :=
  decide (a.name = b.name) && decide (a.lon = b.lon) && decide (a.lat = b.lat) && decide (a.frame = b.frame) && decide (a.epoch = b.epoch) &&
    decide (a.motion = b.motion)

def trip (rd : Int → Int) (mir : Bool) (o : Par ℚ Nat) : Option (Par ℚ Nat) :=
  match writePar id rd (fun _ _ x => x) 0 1 2000 2456999 mir o with
  | none => none
  | some f => readPar sameQ f

def rowsOf (o : Par ℚ Nat) : List ℚ × List (List Int) × List (List Char) := (o.times, [o.ant1, o.ant2, o.srcIds, o.antNums], o.antNames)

example : (trip f32 false par1).map rowsOf = some ([2457000, 2457001], [[0, 1], [1, 1], [1, 5], [0, 1]], [['a'], ['b']]) := by decide +kernel

example : (trip f32 true par1).map rowsOf = some ([2457000, 2457001], [[1, 2], [2, 2], [1, 5], [1, 2]], [['a'], ['b']]) := by decide +kernel

example : ((trip f32 false par1).bind fun r => (srcOf r.cat 5).map Src.name) = some "NGC1".toList := by decide +kernel

/-- C110: in single precision a baseline of two antennas with large numbers comes back as an antenna with itself. -/
theorem antennas_counterexample :
    (trip f32 false { par1 with ant1 := [16777216], ant2 := [16777217], antNums := [16777216, 16777217] }).map (fun r => (r.ant1, r.ant2, r.antNums)) =
      some ([16777216], [16777216], [16777216, 16777217]) := by
  decide +kernel

/-- C110: names that differ after the eighth letter come back alike. -/
theorem names_counterexample :
    (trip f32 false { par1 with antNames := ["station-01".toList, "station-02".toList] }).map (fun r => r.antNames) =
      some ["station-".toList, "station-".toList] := by
  decide +kernel

/-- C110: two sources that differ in their proper motion only; the file is written and cannot be read. -/
theorem sources_counterexample :
    trip f32 false { par1 with cat := [(0, srcA), (4, { srcA with motion := some (1, 1) })] } = none := by
  decide +kernel

/-- C110: the proper motion of a source is lost. -/
theorem motion_counterexample :
    (trip f32 false { par1 with cat := [(0, srcA), (4, { srcB with motion := some (1, 1) })] }).map (fun r => (srcOf r.cat 5).map Src.motion) =
      some (some none) := by
  decide +kernel

example : fileFrame 0 1 [2, 1, 1, 2] = some 1 ∧ fileFrame 0 1 [2, 1, 2] = some 2 ∧ fileFrame 0 1 [1, 0] = some 0 := by decide +kernel

example : (2 : Int) ^ 24 = 16777216 ∧ f32 16777219 = 16777220 ∧ f32 (-16777217) = -16777216 := by decide +kernel

end Verif.Fits
