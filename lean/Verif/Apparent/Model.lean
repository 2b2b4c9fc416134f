import Mathlib.Analysis.InnerProductSpace.PiL2
import Mathlib.Analysis.SpecialFunctions.Trigonometric.Inverse
import Mathlib.Analysis.SpecialFunctions.Complex.Arg
import Mathlib.Algebra.Order.Floor.Ring

/-!
# Apparent directions

Model of `src/astro/aberration.rs`, `src/astro/light_deflection.rs`, `src/astro/apparent.rs` and of the
two star-altitude functions that take a correction policy (`src/event/stellar/altitude_periods.rs`,
`src/event/horizontal.rs`).

Real arithmetic.  A direction of `affn` is a unit vector; `Direction::from_array` and `normalize`
divide by the norm.  Earth's velocity, the precession-nutation-bias matrix and apparent sidereal time
are parameters.
-/

namespace Verif.Apparent

open Classical

abbrev Vec3 := EuclideanSpace ℝ (Fin 3)

/-! ## Aberration -/

/-- `aberrate_direction_lorentz` (src/astro/aberration.rs:53-76). -/
noncomputable def aberrate (u beta : Vec3) : Vec3 :=
  let beta2 := ‖beta‖ ^ 2
  if beta2 = 0 then u
  else
    let gamma := 1 / Real.sqrt (1 - beta2)
    let bu := inner ℝ beta u
    (1 / (1 + bu)) • ((1 / gamma) • u + (1 + (gamma / (gamma + 1)) * bu) • beta)

/-- `apply_aberration_to_direction_with_velocity` (aberration.rs:80-85); `c` is the speed of light in
the unit of the velocity (`AU_PER_DAY_C` of `qtty`). -/
noncomputable def applyWithVelocity (c : ℝ) (u v : Vec3) : Vec3 := aberrate u ((1 / c) • v)

/-- `remove_aberration_from_direction_with_velocity` (aberration.rs:89-95). -/
noncomputable def removeWithVelocity (c : ℝ) (u v : Vec3) : Vec3 := aberrate u (-((1 / c) • v))

/-- `apply_aberration_to_direction` (aberration.rs:104-112); `earth` is the barycentric velocity of
the Earth in the frame of the direction. -/
noncomputable def applyDirection (c : ℝ) (earth : ℝ → Vec3) (u : Vec3) (jd : ℝ) : Vec3 :=
  applyWithVelocity c u (earth jd)

/-- `remove_aberration_from_direction` (aberration.rs:117-124). -/
noncomputable def removeDirection (c : ℝ) (earth : ℝ → Vec3) (u : Vec3) (jd : ℝ) : Vec3 :=
  removeWithVelocity c u (earth jd)

/-- `apply_aberration` (aberration.rs:136-150). -/
noncomputable def applyAberration (c : ℝ) (earth : ℝ → Vec3) (p : Vec3) (jd : ℝ) : Vec3 :=
  if ‖p‖ = 0 then p
  else ‖p‖ • applyDirection c earth ((1 / ‖p‖) • p) jd

/-- `remove_aberration` (aberration.rs:161-175). -/
noncomputable def removeAberration (c : ℝ) (earth : ℝ → Vec3) (p : Vec3) (jd : ℝ) : Vec3 :=
  if ‖p‖ = 0 then p
  else ‖p‖ • removeDirection c earth ((1 / ‖p‖) • p) jd

/-! ## Light deflection -/

/-- `SOLAR_SCHWARZSCHILD_AU` (src/astro/light_deflection.rs:56). -/
noncomputable def solarRadius : ℝ := 1.97412574336e-8

/-- `JUPITER_SCHWARZSCHILD_AU` (light_deflection.rs:66). -/
noncomputable def jupiterRadius : ℝ := solarRadius / 1047.348644

/-- `SATURN_SCHWARZSCHILD_AU` (light_deflection.rs:74). -/
noncomputable def saturnRadius : ℝ := solarRadius / 3497.9018

/-- `Direction::normalize`. -/
noncomputable def normalize (v : Vec3) : Vec3 := (1 / ‖v‖) • v

/-- `body_deflection` (light_deflection.rs:133-160). -/
noncomputable def bodyDeflection (s q : Vec3) (rs : ℝ) : Vec3 :=
  let qMag := ‖q‖
  if qMag < 1e-10 ∨ rs ≤ 0 then s
  else
    let qHat := (1 / qMag) • q
    let sq := inner ℝ s qHat
    let denom := 1 + sq
    if |denom| < 1e-15 then s
    else
      let factor := rs / qMag
      let f := factor / denom
      normalize (s + f • (qHat - sq • s))

/-- `solar_deflection` (light_deflection.rs:101-110). -/
noncomputable def solarDeflection (s q : Vec3) : Vec3 := bodyDeflection s q solarRadius

/-- `jupiter_deflection` (light_deflection.rs:176-185). -/
noncomputable def jupiterDeflection (s q : Vec3) : Vec3 := bodyDeflection s q jupiterRadius

/-- `saturn_deflection` (light_deflection.rs:195-204). -/
noncomputable def saturnDeflection (s q : Vec3) : Vec3 := bodyDeflection s q saturnRadius

/-- `full_planetary_deflection` (light_deflection.rs:226-235). -/
noncomputable def fullDeflection (s qs qj qsat : Vec3) : Vec3 :=
  saturnDeflection (jupiterDeflection (solarDeflection s qs) qj) qsat

/-- `solar_deflection_magnitude` (light_deflection.rs:258-271), in arcseconds. -/
noncomputable def deflectionMagnitude (angle dist : ℝ) : ℝ :=
  if angle ≤ 0 ∨ dist ≤ 0 then 0
  else
    let half := angle * 0.5
    let cot := Real.cos half / max |Real.sin half| 1e-10
    let scale := solarRadius / dist
    scale * cot * (180 / Real.pi * 3600)

/-- `solar_deflection_inverse` (light_deflection.rs:291-305). -/
noncomputable def solarInverse (a q : Vec3) : Vec3 :=
  let d := solarDeflection a q
  normalize ((2 : ℝ) • a - d)

/-! ## Correction policies -/

/-- `CorrectionPolicy` (src/astro/apparent.rs:47). -/
structure Policy where
  bits : BitVec 8
  deriving DecidableEq

/-- apparent.rs:51. -/
def Policy.geometric : Policy := ⟨0⟩
/-- apparent.rs:53. -/
def Policy.properMotion : Policy := ⟨1⟩
/-- apparent.rs:56. -/
def Policy.lightTime : Policy := ⟨2⟩
/-- apparent.rs:58. -/
def Policy.aberration : Policy := ⟨4⟩
/-- apparent.rs:62. -/
def Policy.lightDeflection : Policy := ⟨8⟩
/-- apparent.rs:65-67. -/
def Policy.apparent : Policy :=
  ⟨Policy.properMotion.bits ||| Policy.lightTime.bits ||| Policy.aberration.bits ||| Policy.lightDeflection.bits⟩

/-- `contains` (apparent.rs:70-72). -/
def Policy.contains (a b : Policy) : Bool := (a.bits &&& b.bits) == b.bits

/-- `union` (apparent.rs:75-77), `|` (85-90), `|=` (92-96). -/
def Policy.union (a b : Policy) : Policy := ⟨a.bits ||| b.bits⟩

/-- `CORRECTION_ORDER` (apparent.rs:117-122). -/
def correctionOrder : List Policy := [.properMotion, .lightTime, .aberration, .lightDeflection]

/-- `AppliedCorrections` (apparent.rs:134-144). -/
structure Applied where
  requested : Policy
  applied : Policy
  iters : Nat

/-- `from_request` (apparent.rs:148-154). -/
def Applied.fromRequest (p : Policy) : Applied := ⟨p, .geometric, 0⟩

/-- `record` (apparent.rs:157-159). -/
def Applied.record (a : Applied) (stage : Policy) : Applied := { a with applied := a.applied.union stage }

/-! ## Stars on the horizon -/

/-- `f64::atan2`. -/
noncomputable def atan2 (y x : ℝ) : ℝ := Complex.arg ⟨x, y⟩

/-- `rem_euclid(TAU)`, `wrap_pos` and `normalize` of an angle. -/
noncomputable def wrap (x : ℝ) : ℝ := x - ⌊x / (2 * Real.pi)⌋ * (2 * Real.pi)

/-- The direction of a catalogue place (altitude_periods.rs:104-111, horizontal.rs:257-262). -/
noncomputable def catalogue (ra dec : ℝ) : Fin 3 → ℝ :=
  ![Real.cos dec * Real.cos ra, Real.cos dec * Real.sin ra, Real.sin dec]

/-- The true-of-date direction (altitude_periods.rs:115-121, horizontal.rs:264-270). -/
noncomputable def ofDate (npb : Matrix (Fin 3) (Fin 3) ℝ) (policy : Policy) (ra dec : ℝ) : Fin 3 → ℝ :=
  if policy = .geometric then catalogue ra dec else npb.mulVec (catalogue ra dec)

/-- `fixed_star_altitude_rad_with_policy` (src/event/stellar/altitude_periods.rs:87-138): `npb` and
`gast` are those of the epoch; angles in radians. -/
noncomputable def starAltitude (npb : Matrix (Fin 3) (Fin 3) ℝ) (gast lat lon ra dec : ℝ) (policy : Policy) : ℝ :=
  let v := ofDate npb policy ra dec
  let raT := atan2 (v 1) (v 0)
  let rxy := Real.sqrt (v 0 * v 0 + v 1 * v 1)
  let decT := atan2 (v 2) rxy
  let lst := gast + lon
  let ha := wrap (lst - raT)
  Real.arcsin (Real.sin decT * Real.sin lat + Real.cos decT * Real.cos lat * Real.cos ha)

/-- `star_horizontal_with_policy` (src/event/horizontal.rs:243-296): altitude and azimuth in degrees. -/
noncomputable def starHorizontal (npb : Matrix (Fin 3) (Fin 3) ℝ) (gast lat lon ra dec : ℝ) (policy : Policy) : ℝ × ℝ :=
  let v := ofDate npb policy ra dec
  let raT := atan2 (v 1) (v 0)
  let decT := Real.arcsin (v 2)
  let lst := gast + lon
  let ha := wrap (lst - raT)
  let sinAlt := Real.sin decT * Real.sin lat + Real.cos decT * Real.cos lat * Real.cos ha
  let az := atan2 (-Real.cos decT * Real.sin ha)
    (Real.sin decT * Real.cos lat - Real.cos decT * Real.cos ha * Real.sin lat)
  (Real.arcsin sinAlt * (180 / Real.pi), wrap az * (180 / Real.pi))

end Verif.Apparent
