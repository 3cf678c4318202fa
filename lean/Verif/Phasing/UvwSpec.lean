import Verif.Phasing.Uvw
import Verif.Phasing.RotSpec

/-!
# What baseline coordinates are

A baseline is a vector in the frame whose first axis points to longitude zero and whose third axis
is the pole.  A direction on the sky is given by the longitude and latitude of the place that sees
it overhead.
-/

namespace Verif.Phasing

open Verif.Coord (V3)

noncomputable section

/-- Inner product. -/
def dot (p q : V3) : ℝ := p.x * q.x + p.y * q.y + p.z * q.z

/-- Difference of two points. -/
def diff (p q : V3) : V3 := ⟨p.x - q.x, p.y - q.y, p.z - q.z⟩

/-- The direction overhead of longitude `lam` and latitude `dec`. -/
def toward (lam dec : ℝ) : V3 :=
  ⟨Real.cos dec * Real.cos lam, Real.cos dec * Real.sin lam, Real.sin dec⟩

/-- East of that direction. -/
def eastOf (lam : ℝ) : V3 := ⟨-Real.sin lam, Real.cos lam, 0⟩

/-- North of that direction. -/
def northOf (lam dec : ℝ) : V3 :=
  ⟨-Real.sin dec * Real.cos lam, -Real.sin dec * Real.sin lam, Real.cos dec⟩

/-- The u, v, w of a baseline: w along the direction, u and v along east and north turned by the
position angle. -/
def proj (lam dec pa : ℝ) (b : V3) : V3 :=
  ⟨Real.cos pa * dot (eastOf lam) b - Real.sin pa * dot (northOf lam dec) b,
   Real.sin pa * dot (eastOf lam) b + Real.cos pa * dot (northOf lam dec) b,
   dot (toward lam dec) b⟩

/-- The antenna numbered `n` stands at `p`. -/
def StandsAt (nums : List Int) (pos : List V3) (n : Int) (p : V3) : Prop :=
  ∃ k : Nat, nums[k]? = some n ∧ pos[k]? = some p

end

/-! ## Facts about the specification -/

theorem proj_rot (g dec pa : ℝ) (b : V3) :
    toUvw (rotAbout 0 pa (rotAbout 1 dec (rotAbout 2 g b))) = proj (-g) dec pa b := by
  ext <;> simp only [toUvw, rotAbout, proj, dot, toward, eastOf, northOf, Real.cos_neg,
    Real.sin_neg] <;> ring

theorem proj_diff (lam dec pa : ℝ) (p q : V3) :
    diff (proj lam dec pa p) (proj lam dec pa q) = proj lam dec pa (diff p q) := by
  ext <;> simp only [diff, proj, dot] <;> ring

/-- Lengths and angles are kept. -/
theorem dot_proj (lam dec pa : ℝ) (p q : V3) :
    dot (proj lam dec pa p) (proj lam dec pa q) = dot p q := by
  simp only [dot, proj, toward, eastOf, northOf]
  have h1 := Real.sin_sq_add_cos_sq lam
  have h2 := Real.sin_sq_add_cos_sq dec
  have h3 := Real.sin_sq_add_cos_sq pa
  generalize Real.sin lam = sl at *
  generalize Real.cos lam = cl at *
  generalize Real.sin dec = sd at *
  generalize Real.cos dec = cd at *
  generalize Real.sin pa = sp at *
  generalize Real.cos pa = cp at *
  linear_combination
    ((-sl * p.x + cl * p.y) * (-sl * q.x + cl * q.y)
      + (-sd * cl * p.x - sd * sl * p.y + cd * p.z) * (-sd * cl * q.x - sd * sl * q.y + cd * q.z))
      * h3
    + ((cl * p.x + sl * p.y) * (cl * q.x + sl * q.y) + p.z * q.z) * h2
    + (p.x * q.x + p.y * q.y) * h1

/-- Every triple is the u, v, w of a baseline. -/
theorem proj_surj (lam dec pa : ℝ) (v : V3) : ∃ b, proj lam dec pa b = v := by
  refine ⟨rotAbout 2 lam (rotAbout 1 (-dec) (rotAbout 0 (-pa) (ofUvw v))), ?_⟩
  have := proj_rot (-lam) dec pa (rotAbout 2 lam (rotAbout 1 (-dec) (rotAbout 0 (-pa) (ofUvw v))))
  rw [neg_neg] at this
  rw [← this]
  have h1 : ∀ w, rotAbout 2 (-lam) (rotAbout 2 lam w) = w := rotAbout_neg 2 lam
  have h2 : ∀ w, rotAbout 1 dec (rotAbout 1 (-dec) w) = w := fun w => by
    simpa using rotAbout_neg 1 (-dec) w
  have h3 : ∀ w, rotAbout 0 pa (rotAbout 0 (-pa) w) = w := fun w => by
    simpa using rotAbout_neg 0 (-pa) w
  rw [h1, h2, h3]
  rfl

theorem rot_injective (axis : Fin 3) (a : ℝ) {v w : V3} (h : rotAbout axis a v = rotAbout axis a w) :
    v = w := by
  rw [← rotAbout_neg axis a v, h, rotAbout_neg]

/-- Different baselines have different u, v, w. -/
theorem proj_inj (lam dec pa : ℝ) {b c : V3} (h : proj lam dec pa b = proj lam dec pa c) : b = c := by
  have h1 := proj_rot (-lam) dec pa b
  have h2 := proj_rot (-lam) dec pa c
  rw [neg_neg] at h1 h2
  rw [← h1, ← h2] at h
  have : ∀ v w : V3, toUvw v = toUvw w → v = w := by
    intro v w hvw
    simp only [toUvw, V3.mk.injEq] at hvw
    ext
    · exact hvw.2.2
    · exact hvw.1
    · exact hvw.2.1
  exact rot_injective _ _ (rot_injective _ _ (rot_injective _ _ (this _ _ h)))

end Verif.Phasing
