import Mathlib.Analysis.Calculus.Deriv.Basic
import Mathlib.Analysis.SpecialFunctions.Sqrt
import Mathlib.Analysis.SpecialFunctions.Trigonometric.Basic

/-
What a two-body orbit is: Newton's law and the state at periapsis. Independent of `Verif.Orbit.Model`.
-/
namespace Verif.Orbit.Spec

/-- Degrees to radians. -/
noncomputable def radians (d : ℝ) : ℝ := d * Real.pi / 180

/-- Distance from the origin. -/
noncomputable def dist (v : Fin 3 → ℝ) : ℝ := Real.sqrt (v 0 ^ 2 + v 1 ^ 2 + v 2 ^ 2)

/-- Distance of two points. -/
noncomputable def apart (v w : Fin 3 → ℝ) : ℝ := dist fun i => v i - w i

/-- `vel` is the velocity of `pos`, and the acceleration is `μ/r²` toward the origin. -/
def Newton (μ : ℝ) (pos vel : ℝ → Fin 3 → ℝ) : Prop :=
  ∀ t, HasDerivAt pos (vel t) t ∧ HasDerivAt vel (fun i => -(μ / dist (pos t) ^ 3) * pos t i) t

/-- Rotation about the third axis and about the first axis. -/
noncomputable def rotZ (θ : ℝ) (v : Fin 3 → ℝ) : Fin 3 → ℝ :=
  ![Real.cos θ * v 0 - Real.sin θ * v 1, Real.sin θ * v 0 + Real.cos θ * v 1, v 2]
noncomputable def rotX (θ : ℝ) (v : Fin 3 → ℝ) : Fin 3 → ℝ :=
  ![v 0, Real.cos θ * v 1 - Real.sin θ * v 2, Real.sin θ * v 1 + Real.cos θ * v 2]

/-- From the orbital plane (first axis to periapsis, second axis along the motion there) to the reference
frame: argument of periapsis, inclination, longitude of the node. -/
noncomputable def orient (inc node peri : ℝ) (v : Fin 3 → ℝ) : Fin 3 → ℝ := rotZ node (rotX inc (rotZ peri v))

/-- A Keplerian orbit: Newton's law, and at the instant `tp` the body is at distance `q` in the direction of
periapsis and moves across it with the speed belonging to the eccentricity `e`. -/
structure Orbit (μ q e inc node peri tp : ℝ) (pos vel : ℝ → Fin 3 → ℝ) : Prop where
  law : Newton μ pos vel
  place : pos tp = orient inc node peri ![q, 0, 0]
  speed : vel tp = orient inc node peri ![0, Real.sqrt (μ * (1 + e) / q), 0]

end Verif.Orbit.Spec
