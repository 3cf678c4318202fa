import Verif.Beam.PowerMore

/-!
Model of `UVBeam.efield_to_pstokes`, `src/pyuvdata/uvbeam/uvbeam.py` lines 1094–1202, with `_stokes_matrix` and `_construct_mueller`, lines
1022–1092, and C100.

Frequencies and pixels are one axis, as in the model of `efield_to_power`; the reshaping of pixels in lines 1138–1142 and 1175–1176 is the
identity in that form. Left out: the history, the final `check`, warnings, the bookkeeping of which attributes are required, and the
assertion in lines 1169–1172, which holds since the values are absolute values.
-/
namespace Verif.Beam
open Verif.Pol (Str)

/-- `_stokes_matrix`, lines 1042–1055, for the indices 0 to 3. -/
noncomputable def stokesMatrix (i a b : Nat) : ℂ :=
  if i = 0 then (if a = b then 1 else 0)
  else if i = 1 then (if a = b then (if a = 0 then 1 else -1) else 0)
  else if i = 2 then (if a = b then 0 else 1)
  else (if a = b then 0 else if a = 0 then -Complex.I else Complex.I)

/-- `_construct_mueller`, lines 1084–1092, for one pixel: `jones` is read as row, column. -/
noncomputable def mueller (jones : Nat → Nat → ℂ) (i j : Nat) : ℝ :=
  ‖(1 / 2 : ℂ) * ((List.range 2).map fun a => ((List.range 2).map fun b => ((List.range 2).map fun c => ((List.range 2).map fun d =>
    stokesMatrix i a b * jones b c * stokesMatrix j c d * (starRingEnd ℂ) (jones a d)).sum).sum).sum).sum‖

/-- The names `pI`, `pQ`, `pU`, `pV`, line 1146. -/
def pstokesNames : List Str := [['p', 'I'], ['p', 'Q'], ['p', 'U'], ['p', 'V']]

/-- `efield_to_pstokes`, lines 1126–1202: the object after the call and the exception, if any. -/
noncomputable def efieldToPStokes (xo : Option Str) (o : EBeam) : EBeam × Option PErr :=
  if o.power then (o, some .notEfield)
  else
    match pstokesNames.mapM (fun s => Pol.polstr2num xo (s.map Char.toUpper)), o.feeds with
    | some labels, some feeds =>
      let o1 := { o with pols := some labels }
      if feeds.length < 2 ∨ o.nvec < 2 then (o1, some .index)
      else
        ({ o1 with
            data := fun v i pt => if v = 0 ∧ i < 4 then ((mueller (fun a f => o.data a f pt) i i : ℝ) : ℂ) else 0
            nvec := 1
            power := true
            npols := some (feeds.length ^ 2)
            feeds := none
            basis := none
            ncomp := none }, none)
    | _, _ => (o, some .attr)

/-- The four values in closed form, for a matrix of responses: first index the axis of the field, second the feed. -/
noncomputable def pstokesValue (J : Nat → Nat → ℂ) : Nat → ℝ
  | 0 => (Complex.normSq (J 0 0) + Complex.normSq (J 0 1) + Complex.normSq (J 1 0) + Complex.normSq (J 1 1)) / 2
  | 1 => |Complex.normSq (J 0 0) - Complex.normSq (J 0 1) - Complex.normSq (J 1 0) + Complex.normSq (J 1 1)| / 2
  | 2 => |(J 0 0 * (starRingEnd ℂ) (J 1 1)).re + (J 0 1 * (starRingEnd ℂ) (J 1 0)).re|
  | _ => |(J 0 0 * (starRingEnd ℂ) (J 1 1)).re - (J 0 1 * (starRingEnd ℂ) (J 1 0)).re|

theorem mueller_eq (J : Nat → Nat → ℂ) {i : Nat} (hi : i < 4) : mueller J i i = pstokesValue J i := by
  have key : ∀ (z : ℂ) (x : ℝ), z = (x : ℂ) → ‖z‖ = |x| := fun z x h => by rw [h, Complex.norm_real]; rfl
  interval_cases i
  · have h0 : (0 : ℝ) ≤ pstokesValue J 0 := by
      simp only [pstokesValue]
      have := Complex.normSq_nonneg (J 0 0); have := Complex.normSq_nonneg (J 0 1)
      have := Complex.normSq_nonneg (J 1 0); have := Complex.normSq_nonneg (J 1 1)
      linarith
    rw [← abs_of_nonneg h0]
    refine key _ _ ?_
    simp [stokesMatrix, pstokesValue, List.range_succ, Complex.mul_conj]
    ring
  · have : pstokesValue J 1 = |(Complex.normSq (J 0 0) - Complex.normSq (J 0 1) - Complex.normSq (J 1 0) + Complex.normSq (J 1 1)) / 2| := by
      simp only [pstokesValue]
      rw [abs_div, abs_two]
    rw [this]
    refine key _ _ ?_
    simp [stokesMatrix, List.range_succ, Complex.mul_conj]
    ring
  · refine key _ _ ?_
    simp only [stokesMatrix, List.range_succ]
    apply Complex.ext <;> simp <;> ring
  · refine key _ _ ?_
    simp only [stokesMatrix, List.range_succ]
    apply Complex.ext <;> simp <;> ring

end Verif.Beam
