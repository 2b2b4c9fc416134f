import Mathlib.Analysis.SpecialFunctions.Trigonometric.Basic
import Mathlib.LinearAlgebra.Matrix.Notation

/-!
# What a change of fixed frame, ecliptic coordinates and the Sun's place should mean

Independent of the model.
-/

namespace Verif.Place.Spec

/-- `w` has ecliptic longitude and latitude belonging to right ascension and declination of `v` at
obliquity `eps`: the classical formulas, in components. -/
def EclipticOf (eps : ℝ) (v w : Fin 3 → ℝ) : Prop :=
  w 0 = v 0
    ∧ w 1 = v 1 * Real.cos eps + v 2 * Real.sin eps
    ∧ w 2 = v 2 * Real.cos eps - v 1 * Real.sin eps

/-- Turning the first axis towards the second by `t`: longitudes grow by `t`. -/
noncomputable def advance (t : ℝ) (v : Fin 3 → ℝ) : Fin 3 → ℝ :=
  ![v 0 * Real.cos t - v 1 * Real.sin t, v 0 * Real.sin t + v 1 * Real.cos t, v 2]

/-- A vector of unit length. -/
def UnitLength (v : Fin 3 → ℝ) : Prop := v 0 ^ 2 + v 1 ^ 2 + v 2 ^ 2 = 1

end Verif.Place.Spec
