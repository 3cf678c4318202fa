import Verif.Phasing.UvwProps

/-!
# Concrete cases that meet the hypotheses
-/

namespace Verif.Phasing

open Verif.Coord (V3)

/-! ## Rotations -/

/-- Two rows with one vector each, rotated by an angle of their own about the third axis and by a
common one about the second. -/
example (junk : M3) : ∃ y : Arr, rotateTwo junk ⟨1, [[⟨1, 0, 0⟩], [⟨0, 2, 0⟩]]⟩ (.array [1, 2])
    (.scalar 3) 2 1 = .ok y ∧
    bget y.rows 1 = some [rotAbout 1 3 (rotAbout 2 2 ⟨0, 2, 0⟩)] := by
  obtain ⟨y, h1, -, -, -, -, -, h⟩ := rotateTwo_spec junk (n := 2)
    (x := ⟨1, [[⟨1, 0, 0⟩], [⟨0, 2, 0⟩]]⟩) (a1 := .array [1, 2]) (a2 := .scalar 3) 2 1
    ⟨.inr rfl, by simp⟩ (.inr rfl) trivial (.inl rfl)
  exact ⟨y, h1, h 1 (by omega) [⟨0, 2, 0⟩] 2 3 rfl rfl rfl⟩

/-- A quarter of a turn takes the first axis to the second one. -/
example : rotAbout 2 (Real.pi / 2) ⟨1, 0, 0⟩ = ⟨0, 1, 0⟩ := by simp [rotAbout]

/-! ## Antenna positions -/

/-- Three antennas, three rows, of which the last two have the same source. -/
noncomputable def threeRows : Args :=
  { appRa := some [0, 1, 1], appDec := some [0, 1, 1], framePa := some [0, 2, 2],
    lst := some [0, 5, 5], antPos := some [⟨0, 0, 0⟩, ⟨0, 1, 0⟩, ⟨3, 1, 7⟩],
    antNums := some [10, 20, 30], ant1 := some [10, 10, 20], ant2 := some [20, 30, 30],
    lon := some 4, lat := some 1 }

theorem threeRows_call : AntCall threeRows [⟨0, 0, 0⟩, ⟨0, 1, 0⟩, ⟨3, 1, 7⟩] [10, 20, 30]
    [10, 10, 20] [20, 30, 30] 4 3 :=
  ⟨rfl, rfl, rfl, rfl, rfl, rfl, by decide, rfl, rfl, rfl, by decide, by decide, by decide⟩

example (junk : M3) : ∃ out, calcUvw junk threeRows = .ok out ∧
    out[2]? = some (proj (1 - (5 - 4)) 1 2 (diff ⟨3, 1, 7⟩ ⟨0, 1, 0⟩)) := by
  obtain ⟨out, h1, -, h⟩ := uvw_from_antennas_partial junk threeRows_call (lst := [0, 5, 5])
    (ra := [0, 1, 1]) (dec := [0, 1, 1]) rfl rfl rfl rfl rfl rfl rfl
    (by intro pa h; obtain rfl := Option.some.inj h; rfl) (by
      intro pa h i t t' r r' d d' h1 h2 h3 h4 h5 h6 _ hd
      obtain rfl := Option.some.inj h
      match i with
      | 0 =>
        simp only [List.getElem?_cons_zero, Option.some.injEq, zero_add,
          List.getElem?_cons_succ] at h5 h6
        rw [← h5, ← h6] at hd
        norm_num at hd
      | 1 => rfl
      | 2 => simp at h2
      | i + 3 => simp at h1)
  exact ⟨out, h1, h 2 20 30 ⟨0, 1, 0⟩ ⟨3, 1, 7⟩ 5 1 1 2 rfl rfl ⟨1, rfl, rfl⟩ ⟨2, rfl, rfl⟩ rfl rfl
    rfl rfl⟩

example (junk : M3) : ∃ out, calcUvw junk { threeRows with toEnu := true } = .ok out ∧
    out[1]? = some (proj 4 1 0 (diff ⟨3, 1, 7⟩ ⟨0, 0, 0⟩)) := by
  obtain ⟨out, h1, -, h⟩ := uvw_enu junk (a := { threeRows with toEnu := true }) (lat := 1)
    (n := 3) (lon := 4) (pos := [⟨0, 0, 0⟩, ⟨0, 1, 0⟩, ⟨3, 1, 7⟩]) (nums := [10, 20, 30])
    (ant1 := [10, 10, 20]) (ant2 := [20, 30, 30])
    ⟨rfl, rfl, rfl, rfl, rfl, rfl, by decide, rfl, rfl, rfl, by decide, by decide, by decide⟩ rfl rfl
  exact ⟨out, h1, h 1 10 30 ⟨0, 0, 0⟩ ⟨3, 1, 7⟩ rfl rfl ⟨0, rfl, rfl⟩ ⟨2, rfl, rfl⟩⟩

/-! ## Moves -/

/-- Two rows moved from one source to another one. -/
noncomputable def twoMoves : Args :=
  { useAntPos := false, uvw := some [⟨1, 2, 3⟩, ⟨4, 5, 6⟩], appRa := some [1, 2],
    appDec := some [3, 4], framePa := some [0, 1], oldRa := some [1, 1], oldDec := some [3, 0],
    oldPa := some [1, 0] }

/-- The way back. -/
noncomputable def twoMovesBack (uvw : List V3) : Args :=
  { useAntPos := false, uvw := some uvw, appRa := some [1, 1], appDec := some [3, 0],
    framePa := some [1, 0], oldRa := some [1, 2], oldDec := some [3, 4], oldPa := some [0, 1] }

theorem twoMoves_call : MoveCall twoMoves [⟨1, 2, 3⟩, ⟨4, 5, 6⟩] where
  use := rfl
  huvw := rfl
  len := by simp [Lengths, twoMoves]
  old := fun _ => ⟨rfl, rfl, rfl⟩
  enu := by rintro (h | h) <;> simp [twoMoves] at h
  new := fun _ => ⟨rfl, rfl, rfl⟩
  pa := fun h => by simp [twoMoves] at h

theorem twoMovesBack_call {uvw : List V3} (h : uvw.length = 2) : MoveCall (twoMovesBack uvw) uvw where
  use := rfl
  huvw := rfl
  len := by simp [Lengths, twoMovesBack, h]
  old := fun _ => ⟨rfl, rfl, rfl⟩
  enu := by rintro (h | h) <;> simp [twoMovesBack] at h
  new := fun _ => ⟨rfl, rfl, rfl⟩
  pa := fun h => by simp [twoMovesBack] at h

theorem coherent_of {a : Args} (h1 : a.fromEnu = false) (h2 : a.toEnu = false) : Coherent a :=
  ⟨fun h => by rw [h1] at h; simp at h, fun h => by rw [h1] at h; simp at h,
   fun h => by rw [h2] at h; simp at h, fun h => by rw [h2] at h; simp at h⟩

example (junk : M3) : ∃ out out', calcUvw junk twoMoves = .ok out ∧
    calcUvw junk (twoMovesBack out) = .ok out' ∧ out'[1]? = some ⟨4, 5, 6⟩ := by
  obtain ⟨out, h1, l1⟩ := move_succeeds junk twoMoves_call
  obtain ⟨out', h2, l2⟩ := move_succeeds junk (twoMovesBack_call (uvw := out) (by rw [l1]; rfl))
  refine ⟨out, out', h1, h2, ?_⟩
  exact there_and_back (a := twoMoves) (a' := twoMovesBack out) (uvw := [⟨1, 2, 3⟩, ⟨4, 5, 6⟩])
    rfl rfl rfl rfl (coherent_of rfl rfl) (coherent_of rfl rfl) h1 h2 1 ⟨4, 5, 6⟩ rfl 1 0 0 2 4 1
    (by simp [Was, twoMoves, Entry, paAt]) (by simp [Becomes, twoMoves, Entry, paAt])
    (by simp [Was, twoMovesBack, Entry, paAt]) (by simp [Becomes, twoMovesBack, Entry, paAt])

/-- Local coordinates projected for a source. -/
noncomputable def fromLocal : Args :=
  { useAntPos := false, uvw := some [⟨4, 5, 6⟩], appRa := some [2], appDec := some [4],
    framePa := some [1], lst := some [3], lat := some 1, fromEnu := true }

example (junk : M3) : ∃ out, calcUvw junk fromLocal = .ok out ∧
    ∀ b, proj (3 - 3 + 7) 1 0 b = ⟨4, 5, 6⟩ → out[0]? = some (proj (2 - 3 + 7) 4 1 b) := by
  obtain ⟨out, h1, -⟩ := move_succeeds junk (a := fromLocal) (uvw := [⟨4, 5, 6⟩])
    { use := rfl, huvw := rfl, len := by simp [Lengths, fromLocal],
      old := fun h => by simp [fromLocal] at h, enu := fun _ => ⟨rfl, rfl⟩,
      new := fun _ => ⟨rfl, rfl, rfl⟩, pa := fun h => by simp [fromLocal] at h }
  refine ⟨out, h1, fun b hb => ?_⟩
  have := uvw_moved_partial (a := fromLocal) (uvw := [⟨4, 5, 6⟩]) rfl rfl
    ⟨fun _ l h => by simp [fromLocal] at h, fun _ l h => by simp [fromLocal] at h,
     fun h => by simp [fromLocal] at h, fun h => by simp [fromLocal] at h⟩ h1 0 3 1 0 2 4 1 (3 - 7) b
    (by simp [Was, fromLocal, Entry]) (by simp [Becomes, fromLocal, Entry, paAt]) (by
      rw [← hb]
      have : (3 : ℝ) - (3 - 7) = 3 - 3 + 7 := by norm_num
      rw [this]; rfl)
  rw [this]
  congr 2
  norm_num

end Verif.Phasing
