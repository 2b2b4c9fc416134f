import Mathlib.Analysis.SpecialFunctions.Trigonometric.Basic
import Mathlib.Topology.Instances.Real.Lemmas

/-! Vocabulary for the altitude of a star in diurnal motion. Independent of the model. -/
namespace Verif.Stellar.Spec

/-- Sine of the altitude of a star at declination `dec` seen from latitude `lat` at hour angle `H`
(radians): the textbook formula. -/
noncomputable def sinAlt (dec lat H : ℝ) : ℝ :=
  Real.sin dec * Real.sin lat + Real.cos dec * Real.cos lat * Real.cos H

/-- The hour angle (degrees) of a star which has `ha` at the instant `start` and turns once in `sid`. -/
noncomputable def turning (ha start sid t : ℝ) : ℝ := ha + 360 * ((t - start) / sid)

/-- Two angles in degrees agree up to whole turns. -/
def SameAngle (x y : ℝ) : Prop := ∃ k : ℤ, x - y = 360 * k

/-- `g` changes sign at `z`: at all small equal distances before and after `z` it has opposite,
strict signs. -/
def Crosses (g : ℝ → ℝ) (z : ℝ) : Prop :=
  ∃ δ > 0, ∀ s, 0 < s → s < δ →
    (g (z - s) < 0 ∧ 0 < g (z + s)) ∨ (0 < g (z - s) ∧ g (z + s) < 0)

end Verif.Stellar.Spec
