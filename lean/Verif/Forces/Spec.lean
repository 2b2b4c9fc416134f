import Mathlib.Analysis.InnerProductSpace.PiL2
import Mathlib.Analysis.SpecialFunctions.Trigonometric.Inverse

/-!
# What the force models should compute

Stated without the model: Newtonian attraction, friction against a rotating gas, light rays and balls, the ellipsoid.
-/

namespace Verif.Forces.Spec

abbrev Vec3 := EuclideanSpace ℝ (Fin 3)

/-- The acceleration at `x` towards a body of gravitational parameter `μ` at `y`. -/
noncomputable def attraction (μ : ℝ) (x y : Vec3) : Vec3 := (μ / dist x y ^ 3) • (y - x)

/-- What a third body adds to the relative acceleration of a satellite at `x` and the origin. -/
noncomputable def tidal (μ : ℝ) (x y : Vec3) : Vec3 := attraction μ x y - attraction μ 0 y

/-- The vector product. -/
noncomputable def cross (a b : Vec3) : Vec3 :=
  !₂[a 1 * b 2 - a 2 * b 1, a 2 * b 0 - a 0 * b 2, a 0 * b 1 - a 1 * b 0]

/-- Parallel light from the direction `u` is stopped on its way to `x` by the open ball of radius `R` around the
origin. -/
def Shaded (x u : Vec3) (R : ℝ) : Prop := ∃ t : ℝ, 0 ≤ t ∧ ‖x + t • u‖ < R

/-- The light of `p` is stopped on its way to `x` by the open ball of radius `R` around the origin. -/
def Stopped (x p : Vec3) (R : ℝ) : Prop := ∃ q ∈ segment ℝ x p, ‖q‖ < R

/-- Rotation about the third axis. -/
noncomputable def turn (α : ℝ) (x : Vec3) : Vec3 :=
  !₂[Real.cos α * x 0 - Real.sin α * x 1, Real.sin α * x 0 + Real.cos α * x 1, x 2]

/-- The solid ellipsoid of revolution with half-axes `a`, `a`, `b`. -/
def solid (a b : ℝ) : Set Vec3 := {x | x 0 ^ 2 / a ^ 2 + x 1 ^ 2 / a ^ 2 + x 2 ^ 2 / b ^ 2 ≤ 1}

end Verif.Forces.Spec
