import Mathlib.Analysis.SpecialFunctions.Trigonometric.Basic

/-!
# What a sky grid should be

A partition of a zone of the sky into cells, the solid angle of a zone, and the order of the cells.
-/

namespace Verif.Grid.Spec

/-- Solid angle of the zone between two altitudes in degrees. -/
noncomputable def zone (lo hi : ℝ) : ℝ :=
  2 * Real.pi * (Real.sin (hi / 180 * Real.pi) - Real.sin (lo / 180 * Real.pi))

/-- Row by row, upwards in altitude, and within a row eastwards. -/
def Before (a b : ℝ × ℝ) : Prop := a.1 < b.1 ∨ (a.1 = b.1 ∧ a.2 < b.2)

/-- The box of half-widths around a centre, closed below and open above. -/
def Holds (centre : ℝ × ℝ) (altStep azStep : ℝ) (p : ℝ × ℝ) : Prop :=
  centre.1 - altStep / 2 ≤ p.1 ∧ p.1 < centre.1 + altStep / 2 ∧
  centre.2 - azStep / 2 ≤ p.2 ∧ p.2 < centre.2 + azStep / 2

end Verif.Grid.Spec
