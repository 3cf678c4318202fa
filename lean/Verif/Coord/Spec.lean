import Verif.Coord.Model
import Mathlib.Analysis.Calculus.Deriv.Basic

/-!
# What the coordinate transformations are for

Stated with squared distances and derivatives, not with the matrices of the code.
-/

namespace Verif.Coord

noncomputable section

/-- Squared distance of two points. -/
def distSq (p q : V3) : ℝ := (p.x - q.x) ^ 2 + (p.y - q.y) ^ 2 + (p.z - q.z) ^ 2

/-- A path of points has velocity `v` at `t`. -/
def HasVelocity (f : ℝ → V3) (v : V3) (t : ℝ) : Prop :=
  HasDerivAt (fun s => (f s).x) v.x t ∧ HasDerivAt (fun s => (f s).y) v.y t
    ∧ HasDerivAt (fun s => (f s).z) v.z t

/-- The two radii describe a body: both positive, flattened at the poles. -/
def Ellipsoid.Ok (e : Ellipsoid) : Prop := 0 < e.gpsB ∧ e.gpsB ≤ e.gpsA

/-- The point lies on the surface of the ellipsoid. -/
def OnSurface (e : Ellipsoid) (p : V3) : Prop :=
  (p.x ^ 2 + p.y ^ 2) / e.gpsA ^ 2 + p.z ^ 2 / e.gpsB ^ 2 = 1

/-- The outward normal of the ellipsoid at a surface point (the gradient of its equation). -/
def normalAt (e : Ellipsoid) (p : V3) : V3 :=
  ⟨p.x / e.gpsA ^ 2, p.y / e.gpsA ^ 2, p.z / e.gpsB ^ 2⟩

/-- `q` is reached from `p` by going `h` metres along the direction `n`. -/
def Along (n p q : V3) (h : ℝ) : Prop :=
  ∃ c : ℝ, 0 < c ∧ (c * n.x) ^ 2 + (c * n.y) ^ 2 + (c * n.z) ^ 2 = 1 ∧
    q = ⟨p.x + h * (c * n.x), p.y + h * (c * n.y), p.z + h * (c * n.z)⟩

end

end Verif.Coord
