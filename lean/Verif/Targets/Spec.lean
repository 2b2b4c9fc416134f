import Mathlib.Analysis.Calculus.Deriv.Basic
import Mathlib.Analysis.SpecialFunctions.Trigonometric.Deriv
import Mathlib.Analysis.SpecialFunctions.Trigonometric.Basic
import Mathlib.Analysis.Calculus.Deriv.Pi

/-!
# What a target and its proper motion should mean

Independent of the model.
-/

namespace Verif.Targets.Spec

/-- The unit vector at right ascension `ra` and declination `dec`, in degrees. -/
noncomputable def at_ (ra dec : ℝ) : Fin 3 → ℝ :=
  ![Real.cos (dec * (Real.pi / 180)) * Real.cos (ra * (Real.pi / 180)),
    Real.cos (dec * (Real.pi / 180)) * Real.sin (ra * (Real.pi / 180)),
    Real.sin (dec * (Real.pi / 180))]

/-- A direction that is `p` at `jd` and sets out with velocity `v`. -/
def SetsOut (path : ℝ → Fin 3 → ℝ) (jd : ℝ) (p v : Fin 3 → ℝ) : Prop :=
  path jd = p ∧ HasDerivAt path v jd

/-- The celestial pole. -/
def pole : Fin 3 → ℝ := ![0, 0, 1]

/-- A proper declination, away from the poles. -/
def Open (dec : ℝ) : Prop := -90 < dec ∧ dec < 90

end Verif.Targets.Spec
