import Verif.Phase.Model
import Verif.PhaseCat.Spec
import Verif.Phasing.UvwSpec

/-!
# What phasing is meant to do

A row of a data object holds what the correlator measured, delayed by the path that has been taken
out: none for rows of unprojected phase centers, and the third baseline coordinate for the others.
-/

namespace Verif.Phase

open Verif.Coord (V3)
open Verif.PhaseCat (Entry PointsAt)
open Verif.Pol (Str)

noncomputable section

/-- The phase center of row `i` is of the unprojected kind. -/
def Unproj (o : Obj) (i : Nat) : Prop :=
  ∃ e : Entry, PointsAt o.st i e ∧ e.type = ['u', 'n', 'p', 'r', 'o', 'j', 'e', 'c', 't', 'e', 'd']

/-- The path, in metres, that has been taken out of row `i`. -/
def Path (o : Obj) (i : Nat) (w : ℝ) : Prop :=
  Unproj o i ∧ w = 0 ∧ i < o.uvw.length ∨ ¬ Unproj o i ∧ ∃ v : V3, o.uvw[i]? = some v ∧ w = v.z

/-- The turns of a wave of frequency `f` over a path of `w` metres. -/
def turns (f w : ℝ) : ℝ := 2 * Real.pi * (f * w / 299792458)

/-- The factor that stands for a path. -/
def wave (f w : ℝ) : ℂ := ⟨Real.cos (turns f w), -Real.sin (turns f w)⟩

/-- The visibility of row `i`, channel `j`, polarization `p`. -/
def Vis (o : Obj) (i j p : Nat) (z : ℂ) : Prop :=
  ∃ d row chan, o.data = some d ∧ d[i]? = some row ∧ row[j]? = some chan ∧ chan[p]? = some z

/-- What the correlator measured: the visibility without the path. -/
def Signal (o : Obj) (i j p : Nat) (s : ℂ) : Prop :=
  ∃ w f z, Path o i w ∧ o.freqs[j]? = some f ∧ Vis o i j p z ∧ z = s * wave f w

/-- Both objects hold the same measurements. -/
def Keeps (o o' : Obj) : Prop := ∀ i j p s, Signal o i j p s ↔ Signal o' i j p s

/-- The arrays of the object fit together. -/
structure Good (o : Obj) : Prop where
  cons : Verif.PhaseCat.Consistent o.st
  ids : o.st.ids.length = o.uvw.length
  ant1 : o.ant1.length = o.uvw.length
  ant2 : o.ant2.length = o.uvw.length
  time : o.time.length = o.uvw.length
  lst : o.lst.length = o.uvw.length
  ra : o.ra.length = o.uvw.length
  dec : o.dec.length = o.uvw.length
  pa : o.pa.length = o.uvw.length
  data : ∀ d, o.data = some d → d.length = o.uvw.length ∧ ∀ row ∈ d, row.length = o.freqs.length
  nodup : o.nums.Nodup
  placed : o.pos.length = o.nums.length
  known : (∀ x ∈ o.ant1, x ∈ o.nums) ∧ (∀ x ∈ o.ant2, x ∈ o.nums)

/-- Row `i` is selected: every row is, if there is no mask. -/
def Selected (mask : Option (List Bool)) (i : Nat) : Prop := ∀ m, mask = some m → m[i]? = some true

/-- Row `i` is the same in both objects, in everything that belongs to rows. -/
structure SameRow (o o' : Obj) (i : Nat) : Prop where
  id : o'.st.ids[i]? = o.st.ids[i]?
  uvw : o'.uvw[i]? = o.uvw[i]?
  ra : o'.ra[i]? = o.ra[i]?
  dec : o'.dec[i]? = o.dec[i]?
  pa : o'.pa[i]? = o.pa[i]?
  data : ∀ d d', o.data = some d → o'.data = some d' → d'[i]? = d[i]?

/-- Row `i` has the source position `ra`, `dec` and the position angle `pa`. -/
def SourceAt (o : Obj) (i : Nat) (ra dec pa : ℝ) : Prop :=
  o.ra[i]? = some ra ∧ o.dec[i]? = some dec ∧ o.pa[i]? = some pa

/-- The baseline of row `i` is `b`: its coordinates are those of `b` seen toward its source.  The
frame is that of the equator with longitudes measured from the direction of right ascension `L`. -/
def Baseline (o : Obj) (i : Nat) (L : ℝ) (b : V3) : Prop :=
  ∃ ra dec pa, SourceAt o i ra dec pa ∧ o.uvw[i]? = some (Verif.Phasing.proj (ra - L) dec pa b)

/-- The source of every unprojected row is overhead, with position angle zero. -/
def Overhead (o : Obj) : Prop :=
  ∀ i, Unproj o i → ∀ t, o.lst[i]? = some t → SourceAt o i t o.lat 0

end

end Verif.Phase
