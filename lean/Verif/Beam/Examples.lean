import Verif.Beam.SelectProps
import Verif.Beam.AddMore
import Verif.FreqSort.Examples

/-! Concrete cases and counterexamples for C93–C96. -/
namespace Verif.Beam
open Verif.Np Verif.FreqSort Verif.Add

abbrev O := Obj Int Int Int Int Int

def so : Sorts Int := ⟨stable Int, stable Int⟩

/-- A power beam with three polarizations, two frequencies, two rows and three columns. The value at positions `i j k l` is `1000 i + 100 j + 10 k + l`. -/
def power : O where
  power := true
  healpix := false
  pols := [-5, -6, -7]
  npol := 3
  freqs := [50, 60]
  ax2 := [0, 1]
  ax1 := [0, 10, 20]
  data i j k l := 1000 * i + 100 * j + 10 * k + l
  bandpass j := j + 1
  extra := some (fun j => 7 + j)
  basis := none
  coupling := none

/-- The same with basis vectors. -/
def powerB : O := { power with basis := some (2, 3, fun k l => 10 * k + l) }

/-- An E-field beam of a phased array: feeds 120 and 121. -/
def efield : O :=
  { power with power := false, pols := [120, 121], npol := 2, basis := some (2, 3, fun k l => 10 * k + l), coupling := some (fun i i' j => 100 * i + 10 * i' + j) }

theorem power_distinct : Distinct power := ⟨by decide, by decide, by decide, by decide⟩
theorem powerB_distinct : Distinct powerB := ⟨by decide, by decide, by decide, by decide⟩
theorem efield_distinct : Distinct efield := ⟨by decide, by decide, by decide, by decide⟩

/-! ### C93, C94 -/

def q1 : Req Int := { pols := some [-5, -7], freqs := some [60], ax1 := some [2, 0] }

/-- The theorem applies: two polarizations, a frequency, two columns. -/
example : ∃ r, select [] q1 true power = (r, none) ∧ r.pols = [-5, -7] ∧ r.ax1 = [0, 20] ∧
    Part power r (WantP [] q1 power)
      (WantF q1 power)
      (Want2 q1 power)
      (Want1 q1 power) := by
  have h : select [] q1 true power = ((select [] q1 true power).1, none) := Prod.ext rfl (by decide +kernel)
  refine ⟨_, h, by decide +kernel, by decide +kernel, select_keeps_partial _ _ _ _ _ power_distinct (fun _ => rfl) h ?_⟩
  intro l hl
  cases hl
  decide

/-- **C93, counterexample.** The first two polarizations exchanged: the first has the values of the second. -/
theorem select_pols_counterexample : ∃ r, select [] { pols := some [-6, -5] } true power = (r, none) ∧ r.pols = [-6, -5] ∧
    ∃ p ∈ [-6, -5], ∃ p' ∈ [-6, -5], p ≠ p' ∧ ∀ f y x v, Has power p' f y x v → Has r p f y x v :=
  select_pols_swapped [] true power power_distinct (by decide) rfl [-6, -5] (by decide) (by decide) (by decide)

/-- Feeds of an E-field beam, one by its direction, and the elements of the coupling matrix. -/
example : (select [(1, 120)] { feeds := some [1], chans := some [-1] } true efield).2 = none := by decide +kernel

example : (∃ q : Req Int, Askable [] q power ∧ ¬Fits q power) ∧ (select [] { pols := some [-5, -5] } true power).2 = some .shape :=
  ⟨⟨{ pols := some [-5, -5] }, ⟨by simp, by simp, by simp, by simp, by simp, by simp, by rintro l ⟨⟩; exact ⟨rfl, by decide⟩⟩,
    fun h => absurd (h.once _ rfl) (by decide)⟩, by decide +kernel⟩

/-- **C94, counterexample.** A refused selection in place: the frequency is not there, but the columns are already cut. -/
theorem select_refused_counterexample : (select [] ({ ax1 := some [0], freqs := some [70] } : Req Int) true power).2 = some .missing ∧
    (select [] ({ ax1 := some [0], freqs := some [70] } : Req Int) true power).1.ax1 = [0] := by decide +kernel

/-- **C94, counterexample.** A power beam that has kept its basis vectors: no selection of columns, and the columns are cut nevertheless. -/
theorem select_basis_counterexample : (select [] { ax1 := some [0, 1] } true powerB).2 = some .shape ∧
    (select [] { ax1 := some [0, 1] } true powerB).1.ax1 = [0, 10] := by decide +kernel

/-! ### C95, C96 -/

/-- Another frequency and a new one, and a polarization more. -/
def power2 : O :=
  { power with pols := [-5, -8], npol := 2, freqs := [40, 70], bandpass := fun j => 5 + j, data := fun i j k l => 5000 + 1000 * i + 100 * j + 10 * k + l, extra := none }

/-- The same frequencies, another polarization, another passband. -/
def power3 : O := { power with pols := [-8], npol := 1, bandpass := fun j => 5 + j, data := fun _ j _ _ => 5000 + j }

/-- Other columns of the E-field beam. -/
def efield2 : O := { efield with ax1 := [5, 30], basis := some (2, 2, fun k l => 50 + 10 * k + l) }

/-- The theorems apply. -/
example : ∃ r, add so true power power2 = (r, none) ∧ r.freqs = [40, 50, 60, 70] ∧ r.pols = [-5, -6, -7, -8] ∧ Has r (-8) 70 1 10 6111 ∧ HasBand r 60 2 ∧
    Has r (-8) 50 0 0 0 ∧ r.extra = none := by
  have h : add so true power power2 = ((add so true power power2).1, none) := Prod.ext rfl (by decide +kernel)
  have hd2 : Distinct power2 := ⟨by decide, by decide, by decide, by decide⟩
  have ho := add_inOrder so true power power2 _ h power_distinct hd2 (by decide) (by decide) (by decide) (by decide)
  obtain ⟨k1, k2, -, k4⟩ := add_keeps_partial so true power power2 _ power_distinct hd2 h ho
  refine ⟨_, h, by decide +kernel, by decide +kernel, (k1 _ _ _ _ _).2 (Or.inl ⟨1, 1, 1, 1, rfl, rfl, rfl, rfl, by decide⟩), (k2 _ _).2 (Or.inr ⟨⟨1, rfl, by decide⟩, by decide⟩),
    (k1 _ _ _ _ _).2 (Or.inr (Or.inr ⟨by decide +kernel, by decide +kernel, by decide +kernel, by decide +kernel, ?_, ?_, rfl⟩)), k4 (by simp [power2])⟩
  · rintro ⟨w, i, j, k, l, -, h2, -⟩
    exact absurd (List.mem_of_getElem? h2) (by decide)
  · rintro ⟨w, i, j, k, l, h1, -⟩
    exact absurd (List.mem_of_getElem? h1) (by decide)

/-- Basis vectors and coupling of E-field beams. -/
example : ∃ r, add so true efield efield2 = (r, none) ∧ r.ax1 = [0, 5, 10, 20, 30] ∧ HasBasis r 1 30 61 ∧ HasBasis r 1 20 12 ∧ HasCoupling r 121 120 60 101 := by
  have h : add so true efield efield2 = ((add so true efield efield2).1, none) := Prod.ext rfl (by decide +kernel)
  have hd2 : Distinct efield2 := ⟨by decide, by decide, by decide, by decide⟩
  have ho := add_inOrder so true efield efield2 _ h efield_distinct hd2 (by decide) (by decide) (by decide) (by decide)
  have kb := add_basis_partial so true efield efield2 _ efield_distinct hd2 h ho.ax2 ho.ax1 rfl rfl rfl
  have kc := add_coupling_partial so true efield efield2 _ efield_distinct hd2 h ho.pols ho.freqs rfl rfl
  exact ⟨_, h, by decide +kernel, (kb _ _ _).2 (Or.inl ⟨_, rfl, 1, 1, rfl, rfl, by decide⟩),
    (kb _ _ _).2 (Or.inr (Or.inl ⟨⟨_, rfl, 1, 2, rfl, rfl, by decide⟩, by decide⟩)), (kc _ _ _ _).2 (Or.inl ⟨_, rfl, 1, 0, 1, rfl, rfl, rfl, by decide⟩)⟩

/-- **C95, counterexample.** The other object has its frequencies in descending order: 40 gets the passband of 70. -/
theorem add_freqs_counterexample : ∃ r, add so true power { power2 with freqs := [70, 40] } = (r, none) ∧
    ∃ f ∈ [70, 40], ∃ g ∈ [70, 40], f ≠ g ∧ ∀ b, HasBand r f b ↔ HasBand { power2 with freqs := [70, 40] } g b := by
  have h : add so true power { power2 with freqs := [70, 40] } = ((add so true power { power2 with freqs := [70, 40] }).1, none) := Prod.ext rfl (by decide +kernel)
  obtain ⟨f, hf, g, hg, hne, hb, -⟩ := add_freqs_swapped so true power { power2 with freqs := [70, 40] } _ power_distinct ⟨by decide, by decide, by decide, by decide⟩ h (by decide +kernel)
  exact ⟨_, h, f, hf, g, hg, hne, hb⟩

/-- **C95, counterexample.** A polarization is added for the same frequencies, with another passband: the passband of the polarizations that were there is
lost, so the product of value and passband changes for them from 0 · 1 … to 0 · 5 …; at 60 from 100 · 2 to 100 · 6. -/
theorem add_band_counterexample : ∃ r, add so true power power3 = (r, none) ∧ Has power (-5) 60 0 0 100 ∧ HasBand power 60 2 ∧ Has r (-5) 60 0 0 100 ∧ HasBand r 60 6 ∧
    ¬HasBand r 60 2 := by
  have h : add so true power power3 = ((add so true power power3).1, none) := Prod.ext rfl (by decide +kernel)
  have hd2 : Distinct power3 := ⟨by decide, by decide, by decide, by decide⟩
  have ho := add_inOrder so true power power3 _ h power_distinct hd2 (by decide) (by decide) (by decide) (by decide)
  obtain ⟨b1, b2⟩ := add_band_lost so true power power3 _ power_distinct hd2 h ho 60 2 6 ⟨1, rfl, by decide⟩ ⟨1, rfl, by decide⟩ (by decide)
  have hv : Has power (-5) 60 0 0 100 := ⟨0, 1, 0, 0, rfl, rfl, rfl, rfl, by decide⟩
  exact ⟨_, h, hv, ⟨1, rfl, by decide⟩, ((add_keeps_partial so true power power3 _ power_distinct hd2 h ho).1 _ _ _ _ _).2 (Or.inr (Or.inl hv)), b1, b2⟩

/-- **C96, counterexample.** The objects overlap; the addition in place is refused, and the object has lost its array of loss or mismatch. -/
theorem add_refused_counterexample : (add so true power { power with extra := none }).2 = some .overlap ∧
    power.extra.isSome = true ∧ (add so true power { power with extra := none }).1.extra = none := by
  have := add_refused_drops so true power { power with extra := none } ⟨rfl, rfl⟩
    ⟨-5, 50, 0, 0, ⟨_, 0, 0, 0, 0, rfl, rfl, rfl, rfl, rfl⟩, ⟨_, 0, 0, 0, 0, rfl, rfl, rfl, rfl, rfl⟩⟩ rfl
  exact ⟨this.1, rfl, by rw [this.2]⟩

/-- **C96, counterexample.** Power beams that have kept their basis vectors cannot be added along the pixels, and the object is changed nevertheless. -/
theorem add_basis_counterexample : (add so true powerB { powerB with ax1 := [30], basis := some (2, 1, fun _ _ => 0) }).2 = some .shape ∧
    (add so true powerB { powerB with ax1 := [30], basis := some (2, 1, fun _ _ => 0) }).1.ax1 = [0, 10, 20, 30] := by decide +kernel

/-- Both sides of `add_accepted_iff` occur. -/
example : (add so true power power2).2 = none ∧ ¬(∃ p f y x, (∃ v, Has power p f y x v) ∧ ∃ v, Has power2 p f y x v) := by
  have h : (add so true power power2).2 = none := by decide +kernel
  exact ⟨h, ((add_accepted_iff so true power power2 power_distinct ⟨by decide, by decide, by decide, by decide⟩ (by decide) (by decide)).1 h).2.2.1⟩

end Verif.Beam
