import Mathlib.Analysis.SpecialFunctions.Trigonometric.Basic
import Mathlib.Algebra.Order.Floor.Ring
import Mathlib.Algebra.Order.Round

/-!
# Sky grids

Model of `src/coordinates/sampling.rs`.  Real arithmetic; angles of the grid in degrees.
-/

namespace Verif.Grid

open Classical

/-- `SkyGridCell` (src/coordinates/sampling.rs:91-103): altitude and azimuth in degrees, solid angle in
steradians. -/
structure Cell where
  alt : ℝ
  az : ℝ
  solid : ℝ

/-- `SkyGrid` (sampling.rs:147-154). -/
structure Grid where
  altMin : ℝ
  altMax : ℝ
  altStep : ℝ
  azStep : ℝ
  equalArea : Bool

/-- `with_steps` (sampling.rs:169-177). -/
noncomputable def withSteps (altStep azStep : ℝ) : Grid := ⟨0, 90, altStep, azStep, false⟩

/-- `uniform` (sampling.rs:163-165). -/
noncomputable def uniform (step : ℝ) : Grid := withSteps step step

/-- `equal_area` (sampling.rs:187-195). -/
noncomputable def equalArea (altStep azStep : ℝ) : Grid := ⟨0, 90, altStep, azStep, true⟩

/-- `with_alt_range` (sampling.rs:199-203). -/
def Grid.withAltRange (g : Grid) (lo hi : ℝ) : Grid := { g with altMin := lo, altMax := hi }

/-- `x.round() as usize`: halves away from zero, negative values to zero. -/
noncomputable def roundUsize (x : ℝ) : ℕ := if x ≤ 0 then 0 else ⌊x + 1 / 2⌋.toNat

/-- `Degrees::to::<Radian>`. -/
noncomputable def toRad (d : ℝ) : ℝ := d * (Real.pi / 180)

/-- `n_alt` (sampling.rs:211-216). -/
noncomputable def Grid.nAlt (g : Grid) : ℕ :=
  if g.altMax ≤ g.altMin ∨ g.altStep ≤ 0 then 0 else roundUsize ((g.altMax - g.altMin) / g.altStep)

/-- `n_az_uniform` (sampling.rs:218-223). -/
noncomputable def Grid.nAzUniform (g : Grid) : ℕ :=
  if g.azStep ≤ 0 then 0 else roundUsize (360 / g.azStep)

/-- `n_az_equal_area` (sampling.rs:225-233). -/
noncomputable def Grid.nAzEqualArea (g : Grid) (altCenter : ℝ) : ℕ :=
  let cosAlt := max (Real.cos (toRad altCenter)) 0
  let azHorizon := toRad g.azStep
  if azHorizon ≤ 0 then 1
  else max (roundUsize (2 * Real.pi * cosAlt / azHorizon)) 1

/-- Altitude of a row (sampling.rs:241, 281). -/
noncomputable def Grid.rowAlt (g : Grid) (i : ℕ) : ℝ := g.altMin + ((i : ℝ) + 0.5) * g.altStep

/-- `len` (sampling.rs:236-248). -/
noncomputable def Grid.len (g : Grid) : ℕ :=
  if g.equalArea then ((List.range g.nAlt).map fun i : ℕ => g.nAzEqualArea (g.rowAlt i)).sum
  else g.nAlt * g.nAzUniform

/-- `is_empty` (sampling.rs:251-253). -/
noncomputable def Grid.isEmpty (g : Grid) : Prop := g.len = 0

/-- One row of `iter_cells` (sampling.rs:281-314). -/
noncomputable def Grid.row (g : Grid) (i : ℕ) : List Cell :=
  let alt := g.rowAlt i
  let cosAlt := Real.cos (toRad alt)
  let nAz :=
    if g.equalArea then
      max (if toRad g.azStep > 0 then roundUsize (2 * Real.pi * max cosAlt 0 / toRad g.azStep) else 1) 1
    else g.nAzUniform
  let azStep := if g.equalArea then 360 / (nAz : ℝ) else g.azStep
  let solid := cosAlt * toRad g.altStep * toRad azStep
  (List.range nAz).map fun j : ℕ => ⟨alt, ((j : ℝ) + 0.5) * azStep, solid⟩

/-- `iter_cells` (sampling.rs:271-316). -/
noncomputable def Grid.cells (g : Grid) : List Cell := (List.range g.nAlt).flatMap g.row

/-- `iter` (sampling.rs:259-261). -/
noncomputable def Grid.directions (g : Grid) : List (ℝ × ℝ) := g.cells.map fun c => (c.alt, c.az)

/-- `with_solid_angle` (sampling.rs:264-268). -/
noncomputable def Grid.weighted (g : Grid) : List ((ℝ × ℝ) × ℝ) := g.cells.map fun c => ((c.alt, c.az), c.solid)

end Verif.Grid
