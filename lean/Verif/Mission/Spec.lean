import Mathlib.Analysis.InnerProductSpace.PiL2
import Mathlib.Geometry.Euclidean.Angle.Unoriented.Basic
import Mathlib.MeasureTheory.Measure.Lebesgue.Complex

/-!
# What mission geometry should compute

Stated without the model: segments and balls, areas of discs in the plane, and the horizon profile
drawn through the samples on the circle.
-/

namespace Verif.Mission.Spec

abbrev Vec3 := EuclideanSpace ℝ (Fin 3)

/-- The line of sight from `a` to `b` meets the closed ball around `c`. -/
def Hidden (a b c : Vec3) (r : ℝ) : Prop := ∃ x ∈ segment ℝ a b, dist x c ≤ r

/-- Every point of the luminous ball is hidden by the other ball. -/
def WhollyHidden (obs target : Vec3) (tr : ℝ) (occ : Vec3) (r : ℝ) : Prop :=
  ∀ p, dist p target ≤ tr → Hidden obs p occ r

/-- Every point of the luminous ball is seen. -/
def WhollySeen (obs target : Vec3) (tr : ℝ) (occ : Vec3) (r : ℝ) : Prop :=
  ∀ p, dist p target ≤ tr → ¬ Hidden obs p occ r

/-- `f` is the part of the disc of radius `r` covered by a disc of radius `R` at distance `d`. -/
def IsCovered (r R d f : ℝ) : Prop :=
  0 ≤ f ∧ ENNReal.ofReal f * MeasureTheory.volume (Metric.closedBall (0 : ℂ) r)
    = MeasureTheory.volume (Metric.closedBall (0 : ℂ) r ∩ Metric.closedBall (d : ℂ) R)

/-- The samples repeated around the circle. -/
def around (samples : List (ℝ × ℝ)) : Set (ℝ × ℝ) :=
  {x | ∃ p ∈ samples, ∃ k : ℤ, x = (p.1 + k * (2 * Real.pi), p.2)}

/-- `e` is the height at `az` of the straight line between the two neighbouring samples. -/
def Horizon (samples : List (ℝ × ℝ)) (az e : ℝ) : Prop :=
  ∃ p ∈ around samples, ∃ q ∈ around samples, p.1 ≤ az ∧ az ≤ q.1 ∧ p.1 < q.1 ∧
    (∀ x ∈ around samples, x.1 ≤ p.1 ∨ q.1 ≤ x.1) ∧
    e = p.2 + (az - p.1) / (q.1 - p.1) * (q.2 - p.2)

/-- The direction at azimuth `az` (from north through east) and elevation `el`, in a basis. -/
noncomputable def pointing (east north up : Vec3) (az el : ℝ) : Vec3 :=
  (Real.cos el * Real.sin az) • east + (Real.cos el * Real.cos az) • north + Real.sin el • up

/-- The zenith at latitude `φ` and longitude `l`. -/
noncomputable def zenith (φ l : ℝ) : Vec3 :=
  !₂[Real.cos φ * Real.cos l, Real.cos φ * Real.sin l, Real.sin φ]

end Verif.Mission.Spec
