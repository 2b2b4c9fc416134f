import Mathlib.Analysis.InnerProductSpace.PiL2
import Mathlib.Analysis.SpecialFunctions.Trigonometric.Basic

/-!
# What apparent directions should be

The Lorentz boost of the incoming ray, the great circle through a body and a star, and the zenith and
meridian of an observer.
-/

namespace Verif.Apparent.Spec

abbrev Vec3 := EuclideanSpace ℝ (Fin 3)

/-- Time component of an event or wave vector in a frame moving with velocity `β` (in units of the speed of
light). -/
noncomputable def boostTime (β : Vec3) (t : ℝ) (x : Vec3) : ℝ :=
  (t - inner ℝ β x) / Real.sqrt (1 - ‖β‖ ^ 2)

/-- Space components in the moving frame: the part along `β` is dilated and shifted, the part across is kept. -/
noncomputable def boostSpace (β : Vec3) (t : ℝ) (x : Vec3) : Vec3 :=
  let along := (inner ℝ β x / ‖β‖ ^ 2) • β
  (x - along) + (1 / Real.sqrt (1 - ‖β‖ ^ 2)) • (along - t • β)

/-- `u'` is the direction in which the moving observer sees light that comes from `u`: the light travels along
`-u`, with wave vector `(1, -u)` at rest and `ω (1, -u')` in the moving frame. -/
def SeenBy (β u u' : Vec3) : Prop :=
  ∃ ω : ℝ, 0 < ω ∧ boostTime β 1 (-u) = ω ∧ boostSpace β 1 (-u) = -(ω • u')

/-- The direction at angle `θ` from `p` towards `t`. -/
noncomputable def towards (p t : Vec3) (θ : ℝ) : Vec3 := Real.cos θ • p + Real.sin θ • t

/-- Zenith, north and east of an observer at latitude `lat`, when the local sidereal time is `lst`, in the
true equator and equinox of date. -/
noncomputable def up (lat lst : ℝ) : Fin 3 → ℝ :=
  ![Real.cos lat * Real.cos lst, Real.cos lat * Real.sin lst, Real.sin lat]

noncomputable def north (lat lst : ℝ) : Fin 3 → ℝ :=
  ![-Real.sin lat * Real.cos lst, -Real.sin lat * Real.sin lst, Real.cos lat]

noncomputable def east (lst : ℝ) : Fin 3 → ℝ := ![-Real.sin lst, Real.cos lst, 0]

end Verif.Apparent.Spec
