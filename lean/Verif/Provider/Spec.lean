import Mathlib.Analysis.SpecialFunctions.Trigonometric.Basic

/-
What culminations and continuous azimuths are. Nothing here refers to the model.
-/
namespace Verif.Provider.Spec

/-- The body crosses the upper meridian: its hour angle is a whole number of turns. -/
def UpperTransit (hourAngle : ℝ → ℝ) (t : ℝ) : Prop := ∃ k : ℤ, hourAngle t = k * (2 * Real.pi)

/-- The body crosses the lower meridian. -/
def LowerTransit (hourAngle : ℝ → ℝ) (t : ℝ) : Prop :=
  ∃ k : ℤ, hourAngle t = k * (2 * Real.pi) + Real.pi

/-- `l` is the azimuth followed without jumps: the reported azimuth lies in one turn and differs from
`l` by whole turns. -/
def Follows (az l : ℝ → ℝ) (a b : ℝ) : Prop :=
  ∀ t ∈ Set.Icc a b, 0 ≤ az t ∧ az t < 2 * Real.pi ∧ ∃ k : ℤ, l t = az t + k * (2 * Real.pi)

/-- The azimuth moves less than half a turn within any time `w`. -/
def Slow (l : ℝ → ℝ) (a b w : ℝ) : Prop :=
  ∀ t ∈ Set.Icc a b, ∀ u ∈ Set.Icc a b, |t - u| ≤ w → |l t - l u| < Real.pi

end Verif.Provider.Spec
