import Mathlib.Analysis.SpecialFunctions.Pow.Real
import Mathlib.Analysis.SpecialFunctions.Trigonometric.Basic

/-!
# What the propagation of two-line elements should give

Nothing here refers to the model.
-/

namespace Verif.MeanElements.Spec

open Real

abbrev V := ℝ × ℝ × ℝ

def dot (a b : V) : ℝ := a.1 * b.1 + a.2.1 * b.2.1 + a.2.2 * b.2.2

def cross (a b : V) : V :=
  (a.2.1 * b.2.2 - a.2.2 * b.2.1, a.2.2 * b.1 - a.1 * b.2.2, a.1 * b.2.1 - a.2.1 * b.1)

def scale (k : ℝ) (a : V) : V := (k * a.1, k * a.2.1, k * a.2.2)

def sub (a b : V) : V := (a.1 - b.1, a.2.1 - b.2.1, a.2.2 - b.2.2)

noncomputable def len (a : V) : ℝ := sqrt (dot a a)

/-- A turn about the first axis. -/
noncomputable def turnX (t : ℝ) (v : V) : V := (v.1, v.2.1 * cos t - v.2.2 * sin t, v.2.1 * sin t + v.2.2 * cos t)

/-- A turn about the third axis. -/
noncomputable def turnZ (t : ℝ) (v : V) : V := (v.1 * cos t - v.2.1 * sin t, v.1 * sin t + v.2.1 * cos t, v.2.2)

/-- From the orbital plane to the frame of the node: argument of perigee, inclination, node. -/
noncomputable def orient (raan inc argp : ℝ) (v : V) : V := turnZ raan (turnX inc (turnZ argp v))

/-- The state is on the ellipse with these elements around a centre with this strength: the size of the orbit follows from
the energy, its plane and parameter from the angular momentum, its shape and the direction of perigee from the eccentricity
vector. -/
structure OnOrbit (mu a e inc raan argp : ℝ) (r v : V) : Prop where
  energy : dot v v / 2 - mu / len r = -mu / (2 * a)
  momentum : cross r v = scale (sqrt (mu * a * (1 - e ^ 2))) (orient raan inc argp (0, 0, 1))
  shape : sub (scale (1 / mu) (cross v (cross r v))) (scale (1 / len r) r) = scale e (orient raan inc argp (1, 0, 0))

/-- The state is at eccentric anomaly `E`. -/
structure At (a e E raan inc argp n : ℝ) (r v : V) : Prop where
  distance : len r = a * (1 - e * cos E)
  along : dot r (orient raan inc argp (1, 0, 0)) = a * (cos E - e)
  radial : dot r v = a ^ 2 * n * e * sin E

/-- What the printed elements say about the mean motion after `d` days, revolutions per day: the format prints half the
first and a sixth of the second derivative. -/
noncomputable def printedMotion (n half sixth d : ℝ) : ℝ := n + (2 * half) * d + (6 * sixth) * d ^ 2 / 2

end Verif.MeanElements.Spec
