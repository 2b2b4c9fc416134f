import Mathlib.Analysis.SpecialFunctions.Pow.Real
import Mathlib.Analysis.SpecialFunctions.Trigonometric.Basic
import Verif.Sky.Model

/-!
# Propagation of two-line elements

Models /repo/src/astro/sgp4/elements.rs and /repo/src/astro/sgp4/propagator.rs. Arithmetic is exact, over the reals: the
tests for finite numbers always pass in the model, except on the elements themselves, where a number that is not finite is
`none`. Conversions of epochs are left out: the epoch is a day count and the year is given.
-/

namespace Verif.MeanElements

/-- `NativeElements` (elements.rs 21-32); radians, revolutions per day and its powers. -/
structure Elements where
  inc : ℝ
  raan : ℝ
  ecc : ℝ
  argp : ℝ
  anomaly : ℝ
  motion : ℝ
  motionDot : ℝ
  motionDdot : ℝ
  bstar : ℝ

/-- The fields of a `TLE` that are used; angles in degrees. A number that is not finite is `none`. -/
structure Tle where
  year : Int
  inc : ℝ
  raan : ℝ
  ecc : Option ℝ
  argp : ℝ
  anomaly : ℝ
  motion : Option ℝ
  motionDot : ℝ
  motionDdot : ℝ
  bstar : ℝ

/-- `Sgp4Error`, without texts. -/
inductive Err where
  | invalidEpoch
  | invalidElements
  | propagation
deriving DecidableEq

noncomputable def deg (x : ℝ) : ℝ := x * (Real.pi / 180)

/-- `tle_to_elements` (elements.rs 35-69). -/
noncomputable def elementsOf (t : Tle) : Except Err Elements :=
  if t.year < 1950 then .error .invalidEpoch
  else match t.ecc with
    | none => .error .invalidElements
    | some e =>
      if ¬ (0 ≤ e ∧ e < 1) then .error .invalidElements
      else match t.motion with
        | none => .error .invalidElements
        | some n =>
          if n ≤ 0 then .error .invalidElements
          else .ok ⟨deg t.inc, deg t.raan, e, deg t.argp, deg t.anomaly, n, t.motionDot, t.motionDdot, t.bstar⟩

/-- `GravityModel` (propagator.rs 40-51). -/
inductive Gravity where
  | wgs72 | wgs72Iau | wgs84
deriving DecidableEq

/-- `GravityConstants` (propagator.rs 294-298). -/
structure Constants where
  mu : ℝ
  radius : ℝ
  j2 : ℝ

/-- `constants` (propagator.rs 54-67). -/
noncomputable def constants : Gravity → Constants
  | .wgs72 | .wgs72Iau => ⟨398600.8, 6378.135, 1.082616e-3⟩
  | .wgs84 => ⟨398600.5, 6378.137, 1.08262998905e-3⟩

/-- `mean_motion_rad_s` (propagator.rs 390-396). -/
noncomputable def motionRad (el : Elements) (days : ℝ) : ℝ :=
  (el.motion + el.motionDot * days + 0.5 * el.motionDdot * days * days - 1.0e-5 * el.bstar * |days|)
    * (2 * Real.pi) / 86400

/-- `semi_major_axis_km` (propagator.rs 398-400). -/
noncomputable def axis (mu n : ℝ) : ℝ := (mu / (n * n)) ^ ((1 : ℝ) / 3)

/-- `validate_native_orbit` (propagator.rs 300-318). -/
noncomputable def validate (el : Elements) (c : Constants) : Except Err Unit :=
  let n := motionRad el 0
  if n ≤ 0 then .error .invalidElements
  else if axis c.mu n * (1 - el.ecc) ≤ 0 then .error .invalidElements
  else .ok ()

/-- The loop of `solve_kepler` (propagator.rs 408-419). -/
noncomputable def newton (M e : ℝ) : Nat → ℝ → Option ℝ
  | 0, _ => none
  | k + 1, E =>
    let f := E - e * Real.sin E - M
    let fp := 1 - e * Real.cos E
    if |fp| < 1.0e-14 then none
    else
      let step := f / fp
      if |step| < 1.0e-13 then some (E - step) else newton M e k (E - step)

/-- `solve_kepler` (propagator.rs 402-423). -/
noncomputable def solve (M e : ℝ) : Option ℝ := newton M e 32 (if e < 0.8 then M else Real.pi)

abbrev Vec := ℝ × ℝ × ℝ

/-- `rotate_perifocal_to_inertial` (propagator.rs 425-451), of a vector in the orbital plane. -/
noncomputable def rotate (raan inc argp : ℝ) (x y : ℝ) : Vec :=
  let so := Real.sin raan; let co := Real.cos raan
  let si := Real.sin inc; let ci := Real.cos inc
  let sw := Real.sin argp; let cw := Real.cos argp
  ((co * cw - so * sw * ci) * x + (-co * sw - so * cw * ci) * y,
   (so * cw + co * sw * ci) * x + (-so * sw + co * cw * ci) * y,
   sw * si * x + cw * si * y)

/-- What the propagation has worked out before solving Kepler's equation (propagator.rs 325-359). -/
structure Secular where
  n : ℝ
  a : ℝ
  raan : ℝ
  argp : ℝ
  m : ℝ

/-- propagator.rs 344-359, after the tests. -/
noncomputable def secular (el : Elements) (c : Constants) (minutes : ℝ) : Secular :=
  let days := minutes / 1440
  let seconds := minutes * 60
  let n := motionRad el days
  let a := axis c.mu n
  let q := 1 - el.ecc * el.ecc
  let p := a * q
  let j := c.j2 * (c.radius / p) * (c.radius / p)
  let ci := Real.cos el.inc
  let raanDot := -1.5 * j * n * ci
  let argpDot := 0.75 * j * n * (5 * ci * ci - 1)
  let mDot := 0.75 * j * n * Real.sqrt q * (3 * ci * ci - 1)
  let phase := 2 * Real.pi * (el.motion * days + 0.5 * el.motionDot * days * days
    + el.motionDdot * days * days * days / 6)
  ⟨n, a, el.raan + raanDot * seconds, el.argp + argpDot * seconds, Sky.remTau (el.anomaly + phase + mDot * seconds)⟩

/-- propagator.rs 361-376. -/
noncomputable def state (s : Secular) (e inc E : ℝ) : Vec × Vec :=
  let q := Real.sqrt (1 - e * e)
  let edot := s.n / (1 - e * Real.cos E)
  (rotate s.raan inc s.argp (s.a * (Real.cos E - e)) (s.a * q * Real.sin E),
   rotate s.raan inc s.argp (-s.a * Real.sin E * edot) (s.a * q * Real.cos E * edot))

/-- `propagate_native` (propagator.rs 320-388). -/
noncomputable def propagate (el : Elements) (c : Constants) (minutes : ℝ) : Except Err (Vec × Vec) :=
  let s := secular el c minutes
  if s.n ≤ 0 then .error .propagation
  else if s.a * (1 - el.ecc * el.ecc) ≤ 0 then .error .propagation
  else match solve s.m el.ecc with
    | none => .error .propagation
    | some E => .ok (state s el.ecc el.inc E)

/-- `from_tle_with_model` (propagator.rs 153-164). -/
noncomputable def fromTle (t : Tle) (g : Gravity) : Except Err (Elements × Constants) :=
  match elementsOf t with
  | .error e => .error e
  | .ok el => match validate el (constants g) with
    | .error e => .error e
    | .ok () => .ok (el, constants g)

/-- `propagate_at` (propagator.rs 233-243) for a finite day count. -/
noncomputable def propagateAt (el : Elements) (c : Constants) (epoch jd : ℝ) : Except Err (ℝ × Vec × Vec) :=
  (propagate el c ((jd - epoch) * 1440)).map fun s => (jd, s)

/-- `propagate_minutes` (propagator.rs 269-277, 457-464) for a finite number. -/
noncomputable def propagateMinutes (el : Elements) (c : Constants) (epoch minutes : ℝ) : Except Err (ℝ × Vec × Vec) :=
  (propagate el c minutes).map fun s => (epoch + minutes / 1440, s)

end Verif.MeanElements
