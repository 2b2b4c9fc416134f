import Mathlib.Analysis.SpecialFunctions.Trigonometric.Arctan
import Mathlib.Analysis.SpecialFunctions.Trigonometric.Deriv
import Mathlib.Analysis.SpecialFunctions.Sqrt
import Verif.Sky.Model
import Verif.Text.Model

/-
Model of the two-body propagation: `/repo/src/astro/orbit.rs`, `/repo/src/astro/conic.rs`,
`/repo/src/astro/conic_equations.rs`, `/repo/src/astro/units.rs`, and the C functions that call it
(`/repo/siderust-ffi/src/coordinates.rs` 1084-1104, 1244-1290; `types.rs` 468-500, 689-704).

Real numbers. Kepler's equation is solved by the crate `keplerian`, which is a parameter (`Solver`): `none`
is its error. Dates are days (`JulianDate::raw`); a finite number is any real, so the finiteness checks of the
constructors are dropped.
-/
namespace Verif.Orbit
open Verif.Text (Res)
open Verif.Sky (atan2 remTau toRad)

/-- A position, in AU, in the ecliptic of J2000. -/
abbrev V := Fin 3 → ℝ

/-- `keplerian::anomaly::{eccentric_from_mean, hyperbolic_from_mean}`: mean anomaly, eccentricity. -/
structure Solver where
  eccentric : ℝ → ℝ → Option ℝ
  hyperbolic : ℝ → ℝ → Option ℝ

/-- orbit.rs 73-80: angles in degrees. -/
structure Elements where
  a : ℝ
  e : ℝ
  inclination : ℝ
  node : ℝ
  periapsis : ℝ
  m0 : ℝ
  epoch : ℝ

/-- conic.rs 190-196: periapsis distance instead of the semi-major axis. -/
structure Conic where
  q : ℝ
  e : ℝ
  inclination : ℝ
  node : ℝ
  periapsis : ℝ
  m0 : ℝ
  epoch : ℝ

/-- conic.rs 293-299: mean motion in degrees per day. -/
structure MeanMotion where
  a : ℝ
  e : ℝ
  inclination : ℝ
  node : ℝ
  periapsis : ℝ
  motion : ℝ
  epoch : ℝ

/-- orbit.rs 189-196. -/
structure Trig where
  sinI : ℝ
  cosI : ℝ
  sinOmega : ℝ
  cosOmega : ℝ
  sinNode : ℝ
  cosNode : ℝ

/-- orbit.rs 224-236. -/
noncomputable def Trig.of (inclination node periapsis : ℝ) : Trig where
  sinI := Real.sin (toRad inclination)
  cosI := Real.cos (toRad inclination)
  sinOmega := Real.sin (toRad periapsis)
  cosOmega := Real.cos (toRad periapsis)
  sinNode := Real.sin (toRad node)
  cosNode := Real.cos (toRad node)

/-- conic_equations.rs 79-96. -/
noncomputable def rotatePrecomputed (radius : ℝ) (t : Trig) (nu : ℝ) : V :=
  let sinU := t.sinOmega * Real.cos nu + t.cosOmega * Real.sin nu
  let cosU := t.cosOmega * Real.cos nu - t.sinOmega * Real.sin nu
  ![radius * (t.cosNode * cosU - t.sinNode * sinU * t.cosI),
    radius * (t.sinNode * cosU + t.cosNode * sinU * t.cosI),
    radius * sinU * t.sinI]

/-- conic_equations.rs 99-118. -/
noncomputable def rotate (radius inclination periapsis node nu : ℝ) : V :=
  let sinU := Real.sin (toRad periapsis + nu)
  let cosU := Real.cos (toRad periapsis + nu)
  ![radius * (Real.cos (toRad node) * cosU - Real.sin (toRad node) * sinU * Real.cos (toRad inclination)),
    radius * (Real.sin (toRad node) * cosU + Real.cos (toRad node) * sinU * Real.cos (toRad inclination)),
    radius * sinU * Real.sin (toRad inclination)]

/-- `atan(u · tan x / w)`. No double lies on a pole of the tangent; next to one the tangent exceeds 10¹⁶ and the
result is π/2, the value taken here. -/
noncomputable def atanTan (u w x : ℝ) : ℝ :=
  if Real.cos x = 0 then Real.pi / 2 else Real.arctan (u * Real.tan x / w)

/-- conic_equations.rs 123-134. -/
noncomputable def ellipticAnomalyRadius (E e a : ℝ) : ℝ × ℝ :=
  (2 * atanTan (Real.sqrt (1 + e)) (Real.sqrt (1 - e)) (E * (1 / 2)), a * (1 - e * Real.cos E))

/-- conic_equations.rs 194-197. -/
noncomputable def hyperbolicAnomalyRadius (H e a : ℝ) : ℝ × ℝ :=
  (2 * atan2 (Real.sqrt (e + 1) * Real.sinh (H * (1 / 2))) (Real.sqrt (e - 1) * Real.cosh (H * (1 / 2))),
    a * (e * Real.cosh H - 1))

/-- `x % TAU` of two `f64`: the remainder of the division rounded toward zero. -/
noncomputable def modTau (x : ℝ) : ℝ :=
  x - 2 * Real.pi * (if 0 ≤ x then (⌊x / (2 * Real.pi)⌋ : ℝ) else (⌈x / (2 * Real.pi)⌉ : ℝ))

/-- conic_equations.rs 54-63: `expect` on the solver. -/
def solveElliptic (s : Solver) (M e : ℝ) : Res Unit ℝ :=
  match s.eccentric M e with
  | some E => .ok E
  | none => .panic

/-- units.rs 64-71 and 108-113. -/
noncomputable def gaussianYear : ℝ := 365.256898326
noncomputable def periodDays (a : ℝ) : ℝ := a * Real.sqrt a * gaussianYear

/-- orbit.rs 269-278. -/
structure Prepared where
  elements : Elements
  motion : ℝ
  m0 : ℝ
  trig : Trig

/-- orbit.rs 330-343; also `TryFrom` (349-353), which always answers `Ok`. -/
noncomputable def Prepared.of (o : Elements) : Prepared where
  elements := o
  motion := 2 * Real.pi / periodDays o.a
  m0 := toRad o.m0
  trig := Trig.of o.inclination o.node o.periapsis

/-- orbit.rs 346-353 (`TryFrom<KeplerianOrbit>`, also behind `Deserialize`, 357-365). -/
noncomputable def Prepared.tryFrom (o : Elements) : Res Unit Prepared := .ok (Prepared.of o)

/-- conic.rs 71-98, the errors a finite input can cause. -/
inductive ConicError where
  | eccentricity | semiMajorAxis | periapsisDistance | parabolicSemiMajorAxis | parabolic | hyperbolic | meanMotion
  | solver
deriving DecidableEq

/-- `affn::conic::SemiMajorAxisParam::try_new` and `classify` (conic.rs 160-166). -/
noncomputable def checkSma (a e : ℝ) : Except ConicError Unit :=
  if e < 0 then .error .eccentricity
  else if e = 1 then .error .parabolicSemiMajorAxis
  else if a ≤ 0 then .error .semiMajorAxis
  else if 1 < e then .error .hyperbolic
  else .ok ()

/-- orbit.rs 136-165. -/
noncomputable def Elements.tryNew (o : Elements) : Except ConicError Elements :=
  (checkSma o.a o.e).map fun _ => o

/-- orbit.rs 282-301. -/
noncomputable def Prepared.tryFromElements (o : Elements) : Except ConicError Prepared :=
  o.tryNew.map Prepared.of

/-- conic.rs 204-236 with `affn::conic::PeriapsisParam::try_new`. -/
noncomputable def Conic.tryNew (o : Conic) : Except ConicError Conic :=
  if o.e < 0 then .error .eccentricity
  else if o.q ≤ 0 then .error .periapsisDistance
  else if o.e = 1 then .error .parabolic
  else .ok o

/-- conic.rs 306-334. -/
noncomputable def MeanMotion.tryNew (o : MeanMotion) : Except ConicError MeanMotion :=
  match checkSma o.a o.e with
  | .error x => .error x
  | .ok _ => if o.motion ≤ 0 then .error .meanMotion else .ok o

/-- conic_equations.rs 324-341. -/
noncomputable def preparedPosition (s : Solver) (p : Prepared) (jd : ℝ) : Res Unit V :=
  let dt := jd - p.elements.epoch
  (solveElliptic s (modTau (p.m0 + p.motion * dt)) p.elements.e).bind fun E =>
    let nr := ellipticAnomalyRadius E p.elements.e p.elements.a
    .ok (rotatePrecomputed nr.2 p.trig nr.1)

/-- conic_equations.rs 298-300. -/
noncomputable def keplerPosition (s : Solver) (o : Elements) (jd : ℝ) : Res Unit V :=
  preparedPosition s (Prepared.of o) jd

/-- conic_equations.rs 247-254 and 269-287, with the mean motion. -/
noncomputable def orbitPosition (s : Solver) (o : Elements) (n jd : ℝ) : Res Unit V :=
  let dt := jd - o.epoch
  (solveElliptic s (modTau (toRad o.m0 + n * dt)) o.e).bind fun E =>
    let nr := ellipticAnomalyRadius E o.e o.a
    .ok (rotate nr.2 o.inclination o.periapsis o.node nr.1)

/-- conic_equations.rs 231-254. -/
noncomputable def calculateOrbitPosition (s : Solver) (o : Elements) (jd : ℝ) : Res Unit V :=
  orbitPosition s o (2 * Real.pi / periodDays o.a) jd

/-- conic_equations.rs 46-50: km³/s² to AU³/day². -/
noncomputable def muAuDay (mu : ℝ) : ℝ := mu * (86400 * 86400) / (149597870.7 * 149597870.7 * 149597870.7)

/-- conic_equations.rs 263-288. -/
noncomputable def positionWithMu (s : Solver) (o : Elements) (jd mu : ℝ) : Res Unit V :=
  orbitPosition s o (Real.sqrt (muAuDay mu / (o.a * o.a * o.a))) jd

/-- conic_equations.rs 138-157. -/
noncomputable def meanMotionPosition (s : Solver) (o : MeanMotion) (jd : ℝ) : Res Unit V :=
  let dt := jd - o.epoch
  (solveElliptic s (remTau (toRad o.motion * dt)) o.e).bind fun E =>
    let nr := ellipticAnomalyRadius E o.e o.a
    .ok (rotatePrecomputed nr.2 (Trig.of o.inclination o.node o.periapsis) nr.1)

/-- conic_equations.rs 36. -/
noncomputable def gaussK : ℝ := 0.01720209895

/-- conic_equations.rs 160-203. -/
noncomputable def conicPosition (s : Solver) (o : Conic) (jd : ℝ) : Res ConicError V :=
  let trig := Trig.of o.inclination o.node o.periapsis
  let dt := jd - o.epoch
  if o.e < 1 then
    let a := o.q / (1 - o.e)
    let n := gaussK / (a * Real.sqrt a)
    match s.eccentric (remTau (toRad o.m0 + n * dt)) o.e with
    | none => .panic
    | some E =>
      let nr := ellipticAnomalyRadius E o.e a
      .ok (rotatePrecomputed nr.2 trig nr.1)
  else if 1 < o.e then
    let a := o.q / (o.e - 1)
    let n := gaussK / (a * Real.sqrt a)
    match s.hyperbolic (toRad o.m0 + n * dt) o.e with
    | none => .err .solver
    | some H =>
      let nr := hyperbolicAnomalyRadius H o.e a
      .ok (rotatePrecomputed nr.2 trig nr.1)
  else .err .parabolic

/-! ### The C interface -/

/-- types.rs 689-704: the gravitational parameter of the Rust parameters, by centre code. -/
noncomputable def centreMu (gmSun gmEarth : ℝ) (centre : Nat) : ℝ := if centre = 2 then gmEarth else gmSun

/-- to_bodycentric.rs 71, 128, 186, 244: the body in the Rust transformations. -/
noncomputable def rustBody (s : Solver) (gmSun gmEarth : ℝ) (o : Elements) (centre : Nat) (jd : ℝ) : Res Unit V :=
  positionWithMu s o jd (centreMu gmSun gmEarth centre)

/-- coordinates.rs 1098-1099, 1264-1265, 1314-1315: the body in the C functions, for every centre. -/
noncomputable def cBody (s : Solver) (o : Elements) (_centre : Nat) (jd : ℝ) : Res Unit V := keplerPosition s o jd

end Verif.Orbit
