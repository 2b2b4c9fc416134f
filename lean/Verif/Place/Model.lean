import Verif.Earth.Model
import Verif.Horizon.Model

/-!
# Fixed frames, the ecliptic of date and the place of the Sun

Model of `src/coordinates/transform/frames/{bias,direction,velocity,to_ecliptic,to_equatorial,
to_icrs,mod}.rs`, `src/coordinates/transform/ecliptic_of_date.rs`,
`src/event/solar/sun_equations.rs` and the geocentric-to-topocentric step of
`src/event/horizontal.rs`.

Simplifications: exact real arithmetic; angles in radians where the code passes through degrees;
`affn`'s conversions between vectors and angles are those of `Verif.Horizon`; the lazily filled
cache of the bias matrix is its value.  The ephemeris (barycentric ecliptic vectors of Sun and
Earth), the nutation angles and the geocentric vector of the observer are parameters.
-/

namespace Verif.Place

open Verif.Earth
open Verif.Horizon (len toCart polarOf azimuthOf)
open Verif.Apparent (wrap)

/-! ## Conversions that need no date -/

/-- The frames with `TransformFrame` implementations between them. -/
inductive Fixed
  | icrs | equatorial | ecliptic
  deriving DecidableEq

/-- What is converted. -/
inductive Kind
  | position | direction | velocity
  deriving DecidableEq

/-- `frame_bias_icrs_to_j2000`, `frame_bias_j2000_to_icrs` (bias.rs:51-68). -/
noncomputable def biasTo : M3 := Earth.bias
noncomputable def biasFrom : M3 := Earth.bias.transpose

/-- `obliquity_eq_to_ecl`, `obliquity_ecl_to_eq` (bias.rs:82-92). -/
noncomputable def eqToEcl : M3 := rx (-j2000Obliquity)
noncomputable def eclToEq : M3 := rx j2000Obliquity

/-- `icrs_to_ecliptic_j2000`, `ecliptic_j2000_to_icrs` (bias.rs:96-106). -/
noncomputable def icrsToEcl : M3 := eqToEcl * biasTo
noncomputable def eclToIcrs : M3 := icrsToEcl.transpose

/-- `TransformFrame` for positions (mod.rs:56-65, to_ecliptic.rs:40-61, to_equatorial.rs:40-59,
to_icrs.rs:40-59). -/
noncomputable def positionTo (a b : Fixed) (v : V3) : V3 :=
  match a, b with
  | .icrs, .ecliptic => icrsToEcl.mulVec v
  | .equatorial, .ecliptic => eqToEcl.mulVec v
  | .ecliptic, .equatorial => eclToEq.mulVec v
  | .icrs, .equatorial => biasTo.mulVec v
  | .ecliptic, .icrs => eclToIcrs.mulVec v
  | .equatorial, .icrs => biasFrom.mulVec v
  | .icrs, .icrs => v
  | .equatorial, .equatorial => v
  | .ecliptic, .ecliptic => v

/-- `TransformFrame` for directions (direction.rs:36-100) and velocities (velocity.rs:34-104): the
pairs with ICRS on one side and the ecliptic on the other go through the equator. -/
noncomputable def stepsTo (a b : Fixed) (v : V3) : V3 :=
  match a, b with
  | .ecliptic, .equatorial => eclToEq.mulVec v
  | .equatorial, .ecliptic => eqToEcl.mulVec v
  | .icrs, .equatorial => biasTo.mulVec v
  | .equatorial, .icrs => biasFrom.mulVec v
  | .ecliptic, .icrs => biasFrom.mulVec (eclToEq.mulVec v)
  | .icrs, .ecliptic => eqToEcl.mulVec (biasTo.mulVec v)
  | .icrs, .icrs => v
  | .equatorial, .equatorial => v
  | .ecliptic, .ecliptic => v

/-- `to_frame` of a Cartesian quantity. -/
noncomputable def toFrame : Kind → Fixed → Fixed → V3 → V3
  | .position => positionTo
  | .direction => stepsTo
  | .velocity => stepsTo

/-- A spherical position. -/
structure Sph where
  polar : ℝ
  azimuth : ℝ
  distance : ℝ

/-- `spherical::Position::to_cartesian`, `from_cartesian` (`affn`). -/
noncomputable def Sph.vector (s : Sph) : V3 := s.distance • toCart s.polar s.azimuth
noncomputable def Sph.ofVector (v : V3) : Sph := ⟨polarOf v, azimuthOf v, len v⟩

/-- `to_frame` of a spherical position (mod.rs:67-78). -/
noncomputable def sphericalTo (a b : Fixed) (s : Sph) : Sph :=
  Sph.ofVector (positionTo a b s.vector)

/-- `to_frame` of a spherical direction (mod.rs:84-93): polar angle and azimuth. -/
noncomputable def sphericalDirectionTo (a b : Fixed) (p : ℝ × ℝ) : ℝ × ℝ :=
  let w := stepsTo a b (toCart p.1 p.2)
  (polarOf w, azimuthOf w)

/-! ## The ecliptic of date -/

/-- The common body of the five conversions (ecliptic_of_date.rs:84-169, 207-261): angles of the
vector, vector of the angles, rotation, clamped angles, vector. -/
noncomputable def through (m : M3) (v : V3) : V3 :=
  let w := m.mulVec (toCart (polarOf v) (azimuthOf v))
  toCart (Real.arcsin (max (-1) (min 1 (w 2)))) (wrap (atan2 (w 1) (w 0)))

/-- `to_ecliptic_of_date` from the mean equator of date (84-111). -/
noncomputable def meanToEcliptic (jd : ℝ) (v : V3) : V3 :=
  through (meanEquatorialToEclipticOfDate jd) v

/-- `to_ecliptic_of_date` from ICRS (113-140). -/
noncomputable def icrsToEcliptic (jd : ℝ) (v : V3) : V3 := through (gcrsToEclipticOfDate jd) v

/-- `to_ecliptic_of_date` from GCRS (142-169). -/
noncomputable def gcrsToEcliptic (jd : ℝ) (v : V3) : V3 := through (gcrsToEclipticOfDate jd) v

/-- `to_equatorial_mean_of_date` (208-233) with `ecliptic_of_date_to_mean_equatorial_matrix`
(src/astro/precession.rs:312-314). -/
noncomputable def eclipticToMean (jd : ℝ) (v : V3) : V3 :=
  through (meanEquatorialToEclipticOfDate jd).transpose v

/-- `to_icrs` (235-260) with `ecliptic_of_date_to_gcrs_matrix` (src/astro/precession.rs:260-262). -/
noncomputable def eclipticToIcrs (jd : ℝ) (v : V3) : V3 :=
  through (gcrsToEclipticOfDate jd).transpose v

/-! ## The Sun -/

/-- The heliocentric origin seen from the Earth, ecliptic J2000 (sun_equations.rs:86-90): the shift
heliocentric → barycentric → geocentric of the zero vector. -/
def geocentric (sun earth : V3) : V3 := fun i => 0 + (sun i + -earth i)

/-- `to_frame` to the mean equator of J2000 (sun_equations.rs:91, 117-118). -/
noncomputable def sunJ2000 (sun earth : V3) : V3 :=
  toFrame .position .ecliptic .equatorial (geocentric sun earth)

/-- `get_apparent_geocentric_equ` (sun_equations.rs:80-101). -/
noncomputable def sunApparent (jd : ℝ) (n : Nut) (sun earth : V3) : Sph :=
  Sph.ofVector ((precessionNutation jd n.dpsi n.deps).mulVec (sunJ2000 sun earth))

/-- `geocentric_j2000_to_apparent_topocentric_with_ctx` (event/horizontal.rs:93-143); `site` is the
observer's geocentric vector in the mean equator of J2000. -/
noncomputable def topocentric (jd : ℝ) (n : Nut) (site v : V3) : Sph :=
  let t := fun i => v i - site i
  let m := (precession jd).mulVec t
  Sph.ofVector ((nutationMatrix n).mulVec m)

/-- `get_apparent_topocentric_equ` (sun_equations.rs:105-122). -/
noncomputable def sunTopocentric (jd : ℝ) (n : Nut) (site sun earth : V3) : Sph :=
  topocentric jd n site (sunJ2000 sun earth)

/-- `ecliptic_longitude_geocentric` (sun_equations.rs:185-194). -/
noncomputable def sunLongitude (sun earth : V3) : ℝ := azimuthOf (geocentric sun earth)

end Verif.Place
