import Verif.Coord.Model

/-!
# Directions, bearings, and values that go with a time
-/

namespace Verif.Sky

open Verif.Coord (V3)

noncomputable section

/-- The direction of a longitude and latitude. -/
def dir (p : ℝ × ℝ) : V3 :=
  ⟨Real.cos p.2 * Real.cos p.1, Real.cos p.2 * Real.sin p.1, Real.sin p.2⟩

/-- The direction east at a place on the sphere. -/
def east (p : ℝ × ℝ) : V3 := ⟨-Real.sin p.1, Real.cos p.1, 0⟩

/-- The direction north at a place on the sphere. -/
def north (p : ℝ × ℝ) : V3 :=
  ⟨-Real.sin p.2 * Real.cos p.1, -Real.sin p.2 * Real.sin p.1, Real.cos p.2⟩

def dot (u v : V3) : ℝ := u.x * v.x + u.y * v.y + u.z * v.z

/-- The length of a vector. -/
def len (v : V3) : ℝ := Real.sqrt (v.x ^ 2 + v.y ^ 2 + v.z ^ 2)

/-- `θ` is the position angle, north through east, of the point `b` seen from the point `a`. -/
def Bearing (a b : ℝ × ℝ) (θ : ℝ) : Prop :=
  -Real.pi < θ ∧ θ ≤ Real.pi ∧ ∃ k : ℝ, 0 < k ∧
    dot (east a) (dir b) = k * Real.sin θ ∧ dot (north a) (dir b) = k * Real.cos θ

/-- The two points are neither the same nor opposite. -/
def Apart (a b : ℝ × ℝ) : Prop := ¬ (dot (east a) (dir b) = 0 ∧ dot (north a) (dir b) = 0)

/-- Entries with the same time have the same value. -/
def Fixed (ts xs : List ℝ) : Prop :=
  ∀ (i j : Nat) (t x y : ℝ), ts[i]? = some t → ts[j]? = some t → xs[i]? = some x → xs[j]? = some y → x = y

end

end Verif.Sky
