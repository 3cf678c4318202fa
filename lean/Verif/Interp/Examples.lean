import Verif.Interp.NewObject
import Mathlib.Data.Rat.Defs
import Mathlib.Algebra.Order.Ring.Rat
import Mathlib.Tactic.NormNum

/-!
Cases that meet the conditions of the theorems about interpolation, and counterexamples for C102, C104 and C105.

The library used here gives back what it was given at the points it was given, a fixed number that depends on the kind elsewhere between channels, and the
value of the options elsewhere on the sky.
-/
namespace Verif.Interp

/-- A library that is exact at the points it is given. -/
def lib0 : Lib ℚ ℚ ℚ where
  freq n fs d f := if fs.contains f then d (fs.idxOf f) else n
  band n fs d f := if fs.contains f then d (fs.idxOf f) else n
  spline o za phi f z a := if za.contains z && phi.contains a then f (za.idxOf z) (phi.idxOf a) else o

theorem ascending_nodup {l : List ℚ} (h : Ascending l) : l.Nodup := by
  refine List.Pairwise.imp ?_ h
  intro a b hab
  exact hab.ne

theorem lib0_spline (opts : ℚ) : SplineExact lib0 opts := by
  intro za phi f j k z a hza hphi hj hk
  obtain ⟨hj', ej⟩ := List.getElem?_eq_some_iff.mp hj
  obtain ⟨hk', ek⟩ := List.getElem?_eq_some_iff.mp hk
  have h1 : za.idxOf z = j := by rw [← ej]; exact (ascending_nodup hza).idxOf_getElem j hj'
  have h2 : phi.idxOf a = k := by rw [← ek]; exact (ascending_nodup hphi).idxOf_getElem k hk'
  have m1 : za.contains z = true := by simpa using List.mem_of_getElem? hj
  have m2 : phi.contains a = true := by simpa using List.mem_of_getElem? hk
  simp [lib0, h1, h2, List.mem_of_getElem? hj, List.mem_of_getElem? hk]

theorem lib0_freq : FreqExact lib0.freq := by
  intro n fs d i f hnd hi
  obtain ⟨hi', e⟩ := List.getElem?_eq_some_iff.mp hi
  have h1 : fs.idxOf f = i := by rw [← e]; exact hnd.idxOf_getElem i hi'
  simp [lib0, h1, List.mem_of_getElem? hi]

/-- A power beam with two polarizations, three frequencies, four azimuths that go around (with 2π taken as 4) and two zenith angles. -/
def beam0 : IBeam ℚ ℚ where
  power := true
  pols := [-5, -6]
  npols := 2
  nvec := 1
  freqs := [10, 20, 30]
  az := [0, 1, 2, 3]
  za := [0, 1]
  data := fun _ p n j i => 1000 * p + 100 * n + 10 * j + i
  band := fun n => n + 1
  basis := none

/-- A request for two points, one of them on the grid, at two frequencies, one of them of the beam. -/
def req0 : Req ℚ ℚ where
  az := some [2, 5 / 2]
  za := some [1, 1 / 2]
  grid := false
  freqs := some [20, 25]
  kind := .other 7
  tol := 1
  pols := none
  opts := -1
  reuse := false
  check := true

/-- The values returned. -/
def valsOf (r : Except IErr (Out ℚ ℚ) × Cache ℚ ℚ) : Option (List (List ℚ)) :=
  match r.1 with
  | .ok (.sky _ vals _ _ _) => some vals
  | _ => none

/-- The error, if there is one. -/
def errOf (r : Except IErr (Out ℚ ℚ) × Cache ℚ ℚ) : Option IErr :=
  match r.1 with
  | .error e => some e
  | .ok _ => none

/-- The conditions of `sky_at_grid`, `sky_own`, `polInds_spec` and `interp_sky` are met by this case. -/
example : valsOf (interp lib0 4 0 beam0 req0 []) = some [[112, -1], [1112, -1], [7, -1], [7, -1]] ∧ Ascending beam0.az ∧ Ascending beam0.za ∧
    beam0.freqs.Nodup ∧ SplineExact lib0 req0.opts ∧ FreqExact lib0.freq := by
  refine ⟨by decide +kernel, ?_, ?_, by decide, lib0_spline _, lib0_freq⟩
  · simp only [Ascending, beam0]; decide +kernel
  · simp only [Ascending, beam0]; decide +kernel

/-- C102: requests that are refused: a point away from the grid, a polarization that is not there, a frequency out of range. -/
example : errOf (interp lib0 4 0 beam0 { req0 with za := some [1, 9] } []) = some .domain ∧
    errOf (interp lib0 4 0 beam0 { req0 with pols := some [-7] } []) = some .pol ∧
    errOf (interp lib0 4 0 beam0 { req0 with freqs := some [20, 35] } []) = some .range := by decide +kernel

/-- The case of `reuse_same_partial` and `reuse_twice`. -/
example : valsOf (interp lib0 4 0 beam0 { req0 with reuse := true } (interp lib0 4 0 beam0 { req0 with reuse := true } []).2) =
    some [[112, -1], [1112, -1], [7, -1], [7, -1]] := by decide +kernel

/-- C104 is false when the kind of frequency interpolation changes: the second request is answered with the functions of the first. -/
theorem reuse_kind_counterexample :
    valsOf (interp lib0 4 0 beam0 { req0 with reuse := true, kind := .other 8 } (interp lib0 4 0 beam0 { req0 with reuse := true } []).2) =
      some [[112, -1], [1112, -1], [7, -1], [7, -1]] ∧
    valsOf (interp lib0 4 0 beam0 { req0 with kind := .other 8 } []) = some [[112, -1], [1112, -1], [8, -1], [8, -1]] := by
  decide +kernel

/-- C104 is false when the options of the spline change. -/
theorem reuse_opts_counterexample :
    valsOf (interp lib0 4 0 beam0 { req0 with reuse := true, opts := -2 } (interp lib0 4 0 beam0 { req0 with reuse := true } []).2) =
      some [[112, -1], [1112, -1], [7, -1], [7, -1]] ∧
    valsOf (interp lib0 4 0 beam0 { req0 with opts := -2 } []) = some [[112, -2], [1112, -2], [7, -2], [7, -2]] := by
  decide +kernel

/-- C104 is false when the data of the beam change between requests, say by a normalisation. -/
theorem reuse_data_counterexample :
    valsOf (interp lib0 4 0 { beam0 with data := fun v p n j i => beam0.data v p n j i / 2 } { req0 with reuse := true }
      (interp lib0 4 0 beam0 { req0 with reuse := true } []).2) = some [[112, -1], [1112, -1], [7, -1], [7, -1]] ∧
    valsOf (interp lib0 4 0 { beam0 with data := fun v p n j i => beam0.data v p n j i / 2 } req0 []) =
      some [[56, -1], [556, -1], [7, -1], [7, -1]] := by
  decide +kernel

/-- C104 is false when the polarizations of the beam are put into another order between requests, here with the data: what is saved is saved under
the number of a polarization. -/
theorem reuse_order_counterexample :
    valsOf (interp lib0 4 0 { beam0 with pols := [-6, -5], data := fun v p n j i => beam0.data v (1 - p) n j i }
      { req0 with reuse := true, pols := some [-5] } (interp lib0 4 0 beam0 { req0 with reuse := true } []).2) = some [[1112, -1], [7, -1]] ∧
    valsOf (interp lib0 4 0 { beam0 with pols := [-6, -5], data := fun v p n j i => beam0.data v (1 - p) n j i } { req0 with pols := some [-5] } []) =
      some [[112, -1], [7, -1]] := by
  decide +kernel

/-- C101: whether a frequency is taken from the nearest channel or interpolated depends on the other frequencies of the request. -/
theorem nearest_depends_counterexample :
    valsOf (interp lib0 4 0 beam0 { req0 with freqs := some [41 / 2] } []) = some [[112, -1], [1112, -1]] ∧
    valsOf (interp lib0 4 0 beam0 { req0 with freqs := some [41 / 2, 25] } []) = some [[7, -1], [7, -1], [7, -1], [7, -1]] := by
  decide +kernel

/-- C102 is false when only one of the two coordinates is given: no error is raised, the request is answered as if none had been given. -/
theorem one_coordinate_counterexample :
    errOf (interp lib0 4 0 beam0 { req0 with za := none } []) = none ∧ valsOf (interp lib0 4 0 beam0 { req0 with za := none } []) = none := by
  decide +kernel

/-- A field with basis vectors that point along the coordinates but backwards, or that are turned the other way round, is accepted. -/
theorem basis_counterexample :
    basisAccepted { beam0 with nvec := 2, basis := some fun v c _ _ => if v = c then -1 else 0 } = true ∧
    basisAccepted { beam0 with nvec := 2, basis := some fun v c _ _ => if v = c then 0 else -1 } = true ∧
    (basisOut { beam0 with nvec := 2, basis := some fun v c _ _ => if v = c then 0 else -1 }).map (fun b => (b 0 0, b 0 1)) = some ((1 : ℚ), (0 : ℚ)) := by
  decide +kernel

/-- A request for a new beam on part of the grid. -/
def req1 : Req ℚ ℚ := { req0 with grid := true, az := some [1, 2], za := some [1], freqs := some [30] }

/-- Polarizations, frequencies and values (for both polarizations at both points) of a new beam. -/
def newOf (r : Except IErr (IBeam ℚ ℚ)) : Option (List Int × List ℚ × List ℚ) :=
  match r with
  | .ok b => some (b.pols, b.freqs, [b.data 0 0 0 0 0, b.data 0 0 0 0 1, b.data 0 1 0 0 0, b.data 0 1 0 0 1])
  | .error _ => none

/-- The case of `new_labels`, `new_value` and `new_object_partial`. -/
example : newOf (interpNew lib0 4 0 0 beam0 req1 []) = some ([-5, -6], [30], [211, 212, 1211, 1212]) := by decide +kernel

/-- The case of `new_freq_only`: the polarization asked for is not selected. -/
example : (newOf (interpNew lib0 4 0 0 beam0 { req1 with grid := false, az := none, za := none, pols := some [-6] } [])) =
    some ([-5, -6], [30], [200, 201, 1200, 1201]) := by decide +kernel

/-- C105 is false for polarizations in another order: the values are exchanged, the labels are not. -/
theorem new_object_counterexample :
    newOf (interpNew lib0 4 0 0 beam0 { req1 with pols := some [-6, -5] } []) = some ([-5, -6], [30], [1211, 1212, 211, 212]) ∧
    (beam0.data 0 0 2 1 1, beam0.data 0 1 2 1 1) = (211, 1211) := by
  decide +kernel

/-- C105: a choice of fewer polarizations is refused. -/
example : newOf (interpNew lib0 4 0 0 beam0 { req1 with pols := some [-6] } []) = none := by decide +kernel

end Verif.Interp
