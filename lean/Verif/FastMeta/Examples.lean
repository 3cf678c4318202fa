import Verif.FastMeta.Props

/-! Files that meet the hypotheses, and files for which the claims are false. -/

namespace Verif.FastMeta

open Verif.BltAxis

/-- Sidereal time of a time: it wraps at 10. -/
def sid (t : Nat) : Nat := (t + 2) % 10

/-- Two baselines by two times, time faster; the sidereal time wraps. -/
def gridRows : List (Row Nat) := [⟨7, 1, 0, 20⟩, ⟨9, 1, 0, 20⟩, ⟨7, 1, 2, 10⟩, ⟨9, 1, 2, 10⟩]

def gridFile : Hdr Nat Nat :=
  { rows := gridRows, lsts := some [9, 1, 9, 1], nblts := 4, ntimes := 2, nbls := 2, hera := true, order := none,
    rect := none, timeFirst := none, pols := ["xx".toList, "xy".toList] }

theorem grid_lay : Lay gridFile true := ⟨[20, 10], [7, 9], by decide, by decide, rfl, rfl, by decide, by decide⟩

theorem grid_not : ¬ Lay gridFile false := by
  intro h
  have := (rect_complete gridRows 2 2 (by decide) (by decide)).2 h
  revert this
  decide +kernel

theorem grid_ok : FileOK gridFile where
  some_rows := by decide
  nblts := rfl
  ntimes := by decide
  bl := by decide
  once := by decide
  order := by simp [gridFile]
  rect := by simp [gridFile]
  first := by simp [gridFile]

theorem opts_ok : OptsOK {} gridFile where
  order := by simp
  rect := by simp
  first := by simp

/-- The same with the direction told by the caller. -/
theorem opts_ok' : OptsOK { rect := some true, timeFirst := some true, recompute := some true } gridFile where
  order := by simp
  rect := fun _ => ⟨true, grid_lay⟩
  first := by simp only [Option.some.injEq, forall_eq']; exact fun _ => grid_lay

example : times {} gridFile = .ok [7, 9] ∧ antpairs {} gridFile = .ok [(1, 0), (1, 2)] ∧
    uniqueAnts {} gridFile = .ok [0, 1, 2] ∧ lsts sid {} gridFile = .ok [9, 1] ∧ nbls {} gridFile = nBl gridFile := by
  decide +kernel

example : times { rect := some true, timeFirst := some true, recompute := some true } gridFile = .ok [7, 9] := by
  decide +kernel

example : Lists [7, 9] Row.t gridFile.rows := times_exact grid_ok opts_ok (by decide +kernel) (by decide +kernel)

example : Lists [(1, 0), (1, 2)] pair gridFile.rows :=
  antpairs_exact grid_ok opts_ok' (by decide +kernel) (by decide +kernel)

/-- An old file of HERA: the number of baselines in the header is that of the rows. -/
example : nbls {} { gridFile with nbls := 4 } = 2 :=
  nbls_partial (h := { gridFile with nbls := 4 }) ⟨by decide, rfl, by decide, by decide, by decide, by simp [gridFile],
    by simp [gridFile], by simp [gridFile]⟩ ⟨by simp, by simp, by simp⟩ (.inr (.inr ⟨rfl, rfl, rfl, true, grid_lay⟩))

/-- Two keys that the data have, and one they do not have. -/
example : hasKey {} gridFile ⟨0, 1, none⟩ = .ok true ∧ hasKey {} gridFile ⟨1, 0, some "xy".toList⟩ = .ok true ∧
    hasKey {} gridFile ⟨1, 0, some "yy".toList⟩ = .ok false := by
  decide +kernel

example : ¬ ∃ r ∈ gridFile.rows, r.a = 0 ∧ r.b = 1 := by decide

/-- Rows that are not a grid: one baseline lacks a time. -/
def holeFile : Hdr Nat Nat :=
  { gridFile with rows := [⟨7, 1, 0, 20⟩, ⟨9, 1, 0, 20⟩, ⟨9, 1, 2, 10⟩], lsts := some [9, 1, 1], nblts := 3 }

example : FileOK holeFile ∧ OptsOK {} holeFile ∧ times {} holeFile = .ok [7, 9] ∧
    antpairs {} holeFile = .ok [(1, 0), (1, 2)] :=
  ⟨⟨by decide, rfl, by decide, by decide, by decide, by simp [holeFile, gridFile], by simp [holeFile, gridFile],
    by simp [holeFile, gridFile]⟩, ⟨by simp, by simp, by simp⟩, by decide +kernel, by decide +kernel⟩

/-- C137 is false if a baseline lacks a time: the sidereal times do not belong to the times. -/
theorem lsts_hole_counterexample : FileOK holeFile ∧ holeFile.lsts = some (holeFile.rows.map (fun r => sid r.t)) ∧
    times {} holeFile = .ok [7, 9] ∧ lsts sid {} holeFile = .ok [1, 9] ∧ [7, 9].map sid = [9, 1] :=
  ⟨⟨by decide, rfl, by decide, by decide, by decide, by simp [holeFile, gridFile], by simp [holeFile, gridFile],
    by simp [holeFile, gridFile]⟩, by decide, by decide +kernel, by decide +kernel, by decide⟩

/-- The grid without sidereal times. -/
def bareFile : Hdr Nat Nat := { gridFile with lsts := none }

/-- C137 is false if the file has no sidereal times, even for a grid. -/
theorem lsts_missing_counterexample : Lay bareFile true ∧ times {} bareFile = .ok [7, 9] ∧
    lsts sid {} bareFile = .ok [1, 9] :=
  ⟨grid_lay, by decide +kernel, by decide +kernel⟩

/-- C138 is false with a polarization: any polarization is found on a pair in the other direction, and on any pair of an
antenna with itself. -/
theorem key_counterexample : FileOK gridFile ∧ hasKey {} gridFile ⟨0, 1, some "zz".toList⟩ = .ok true ∧
    ¬ Has List.reverse gridFile ⟨0, 1, some "zz".toList⟩ := by
  refine ⟨grid_ok, by decide +kernel, ?_⟩
  rintro (⟨r, h1, h2, h3, _⟩ | ⟨r, _, _, _, h⟩)
  · have : ∀ r ∈ gridRows, ¬ (r.a = 0 ∧ r.b = 1) := by decide
    exact this r h1 ⟨h2, h3⟩
  · have := h _ rfl
    revert this
    decide

/-- Two baselines at one time each. -/
def heraFile : Hdr Nat Nat :=
  { gridFile with rows := [⟨7, 1, 0, 20⟩, ⟨9, 1, 2, 10⟩], lsts := some [9, 1], nblts := 2 }

/-- C139 and C136 are false for files of HERA with as many baselines as rows: the header is right, the number is not, and
a baseline is missing from the list of antenna pairs. -/
theorem hera_counterexample : FileOK heraFile ∧ OptsOK {} heraFile ∧ heraFile.nbls = nBl heraFile ∧
    nbls {} heraFile = 1 ∧ antpairs {} heraFile = .ok [(1, 0)] ∧ hasKey {} heraFile ⟨1, 2, none⟩ = .ok false ∧
    antpairs { recompute := some false } heraFile = .ok [(1, 0), (1, 2)] :=
  ⟨⟨by decide, rfl, by decide, by decide, by decide, by simp [heraFile, gridFile], by simp [heraFile, gridFile],
    by simp [heraFile, gridFile]⟩, ⟨by simp, by simp, by simp⟩, by decide +kernel, by decide +kernel,
    by decide +kernel, by decide +kernel, by decide +kernel⟩

/-- A file with rows that occur twice. -/
def twiceFile : Hdr Nat Nat :=
  { gridFile with rows := [⟨0, 0, 1, 10⟩, ⟨0, 0, 1, 10⟩, ⟨5, 0, 1, 10⟩, ⟨5, 1, 2, 20⟩], hera := false,
                  order := some [.time, .baseline] }

/-- C136 is false if the order in the file is that of time and baseline, and a row occurs twice while another one is
missing: one pair is listed twice and the other one not at all. -/
theorem twice_counterexample : SortedBy [.time, .baseline] twiceFile.rows ∧ nbls {} twiceFile = nBl twiceFile ∧
    antpairs {} twiceFile = .ok [(0, 1), (0, 1)] := by
  refine ⟨?_, by decide +kernel, by decide +kernel⟩
  simp [twiceFile, SortedBy, lexLe, keyLt, keyLe]

end Verif.FastMeta
