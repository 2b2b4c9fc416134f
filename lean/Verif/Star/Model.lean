import Mathlib.Analysis.SpecialFunctions.Trigonometric.Inverse
import Verif.Sky.Model

/-
Model of stellar motion: `/repo/src/astro/proper_motion.rs`, `Star::position_at`, `Star::track`
(`/repo/src/bodies/stars.rs` 145-252) and the altitude provider of stars (`/repo/src/event/altitude/provider.rs`
241-259).

Real numbers. A spherical position of the crate `affn` is the triple of right ascension and declination in degrees
and distance; that its constructor may reduce angles to their usual ranges is left out. The unit conversions of
`qtty` are constants; its year has 365.2425 days (the tests of `/repo/src/targets/target.rs` 190-193 show
20 mas/day = 0.002029125 deg/yr).
-/
namespace Verif.Star
open Verif.Sky (atan2 remTau toRad toDeg)

/-- Right ascension and declination in degrees, distance in AU. -/
structure Position where
  ra : ℝ
  dec : ℝ
  distance : ℝ

/-- proper_motion.rs 57-62. -/
inductive Convention where
  | muAlpha | muAlphaStar

/-- proper_motion.rs 82-92: degrees per `qtty` year. -/
structure ProperMotion where
  ra : ℝ
  dec : ℝ
  convention : Convention

/-- proper_motion.rs 107-113; every failure below is this one. -/
inductive PmError where
  | pole

/-- proper_motion.rs 53. -/
noncomputable def cosEps : ℝ := 1 / 10 ^ 12

/-- Days of `qtty::Year`. -/
noncomputable def yearDays : ℝ := 365.2425

/-- proper_motion.rs 148-172, for rates per day (`Per<Degree, Day>`). -/
noncomputable def ProperMotion.perDay (c : Convention) (ra dec : ℝ) : ProperMotion :=
  ⟨ra * yearDays, dec * yearDays, c⟩

/-- proper_motion.rs 128-144. -/
noncomputable def ProperMotion.rate (p : ProperMotion) (dec : ℝ) : Except PmError ℝ :=
  match p.convention with
  | .muAlpha => .ok p.ra
  | .muAlphaStar =>
    let cosDec := Real.cos (toRad dec)
    if |cosDec| ≤ cosEps then .error .pole else .ok (p.ra / cosDec)

/-- proper_motion.rs 189-206. -/
noncomputable def linear (pos : Position) (p : ProperMotion) (jd epoch : ℝ) : Except PmError Position :=
  let t := (jd - epoch) / 365.25
  match p.rate pos.dec with
  | .error x => .error x
  | .ok r => .ok ⟨pos.ra + r * t, pos.dec + p.dec * t, pos.distance⟩

/-- proper_motion.rs 241-251: mas per year, mas, km/s. -/
structure SpaceMotion where
  raCosDec : ℝ
  dec : ℝ
  parallax : ℝ
  radial : ℝ

/-- Milliarcseconds to radians. -/
noncomputable def masToRad (x : ℝ) : ℝ := x / 3600000 * (Real.pi / 180)

/-- km/s to AU per `qtty` year. -/
noncomputable def kmsToAuYear (v : ℝ) : ℝ := v * (yearDays * 86400) / 149597870.7

/-- proper_motion.rs 286-371. -/
noncomputable def propagate (pos : Position) (m : SpaceMotion) (jd epoch : ℝ) : Except PmError Position :=
  let cosDec := Real.cos (toRad pos.dec)
  if |cosDec| ≤ cosEps then .error .pole
  else
    let sa := Real.sin (toRad pos.ra)
    let ca := Real.cos (toRad pos.ra)
    let sd := Real.sin (toRad pos.dec)
    let cd := Real.cos (toRad pos.dec)
    let plx := masToRad m.parallax
    if plx ≤ 0 then .error .pole
    else
      let r := 1 / plx
      let pmRa := masToRad m.raCosDec / cosDec
      let pmDec := masToRad m.dec
      let va := pmRa * r * cd
      let vd := pmDec * r
      let vr := kmsToAuYear m.radial
      let vx := -sa * va + -sd * ca * vd + cd * ca * vr
      let vy := ca * va + -sd * sa * vd + cd * sa * vr
      let vz := 0 * va + cd * vd + sd * vr
      let dt := (jd - epoch) / 365.25
      let x := r * cd * ca + dt * vx
      let y := r * cd * sa + dt * vy
      let z := r * sd + dt * vz
      let rn := Real.sqrt (x * x + y * y + z * z)
      if rn ≤ 0 then .error .pole
      else .ok ⟨toDeg (remTau (atan2 y x)), toDeg (Real.arcsin (z / rn)), rn⟩

/-- J2000.0. -/
noncomputable def j2000 : ℝ := 2451545

/-- bodies/stars.rs 60-110 and targets/target.rs 50-61: a catalogue entry; position converted to AU. -/
structure Star where
  position : Position
  time : ℝ
  motion : Option ProperMotion
  parallax : Option ℝ
  radial : Option ℝ

/-- bodies/stars.rs 165-215. -/
noncomputable def Star.positionAt (s : Star) (jd : ℝ) : Except PmError Position :=
  match s.parallax, s.radial, s.motion with
  | some plx, some rv, some pm =>
    let ra := match pm.convention with
      | .muAlphaStar => pm.ra * 3600000
      | .muAlpha => pm.ra * 3600000 * Real.cos (toRad s.position.dec)
    propagate s.position ⟨ra, pm.dec * 3600000, plx, rv⟩ jd j2000
  | _, _, some pm => linear s.position pm jd j2000
  | _, _, none => .ok s.position

/-- bodies/stars.rs 226-236 and 239-246: right ascension and declination tracked at a date. -/
def Star.track (s : Star) (_jd : ℝ) : ℝ × ℝ := (s.position.ra, s.position.dec)

/-- altitude/provider.rs 241-244; `fixed` is `fixed_star_altitude_rad` (date, right ascension, declination). -/
def Star.altitudeAt (fixed : ℝ → ℝ → ℝ → ℝ) (s : Star) (jd : ℝ) : ℝ := fixed jd s.position.ra s.position.dec

end Verif.Star
