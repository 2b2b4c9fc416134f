import Verif.Solar.Model
import Verif.Earth.Model

/-!
The compact Sun of `/repo/src/event/solar/daily_events.rs`: `SolarAltitudeSiteContext` and
`solar_sin_altitude_fast` (90-145), `solar_daily_state` (543-587), and the concrete `Sky` they make
for the predictor of `Verif.Solar.Model`.

Real arithmetic; dates are real numbers of days. `jd_ut1_from_tt` (ΔT, `tempoch`) is a parameter.
The finiteness test 559-561 always succeeds on reals.
-/
namespace Verif.SunModel
open Verif.Earth (atan2 remEuclid tau gmst)
open Verif.Solar (Ephem Sky)

/-- Geodetic latitude and longitude in degrees. -/
structure Site where
  lat : ℝ
  lon : ℝ

/-- `f64::to_radians` (daily_events.rs 894-897) and `to::<Radian>()`. -/
noncomputable def rad (d : ℝ) : ℝ := d * (Real.pi / 180)

/-- `J2000.to::<MJD>()` (103, 550). -/
noncomputable def j2000 : ℝ := 51544.5

/-- daily_events.rs 124-131 and 553-560 (the same series in both functions): ecliptic longitude. -/
noncomputable def longitude (n : ℝ) : ℝ :=
  let l := 280.46646 + 0.98564736 * n
  let g := rad (357.52911 + 0.98560028 * n)
  rad l + rad 1.914602 * Real.sin g + rad 0.019993 * Real.sin (2 * g)
    + rad 0.000289 * Real.sin (3 * g)

/-- daily_events.rs 131 and 560. -/
noncomputable def obliquity (n : ℝ) : ℝ := rad (23.439291 - 0.00000036 * n)

/-- daily_events.rs 136 and 564. -/
noncomputable def rightAscension (n : ℝ) : ℝ :=
  atan2 (Real.cos (obliquity n) * Real.sin (longitude n)) (Real.cos (longitude n))

/-- daily_events.rs 141: the sidereal time of the fast model. -/
noncomputable def fastSidereal (n : ℝ) : ℝ := remEuclid (4.894961 + 6.300388 * n) tau

/-- `solar_sin_altitude_fast` (daily_events.rs 121-145). -/
noncomputable def fastSinAlt (s : Site) (t : ℝ) : ℝ :=
  let n := t - j2000
  let sinDec := Real.sin (obliquity n) * Real.sin (longitude n)
  let cosDec := Real.sqrt (1 - sinDec * sinDec)
  let ha := remEuclid (fastSidereal n + rad s.lon - rightAscension n) tau
  Real.sin (rad s.lat) * sinDec + Real.cos (rad s.lat) * cosDec * Real.cos ha

/-- `gmst_default` (src/astro/earth_rotation.rs 178-201) at a TT modified Julian date. -/
noncomputable def gmstDefault (ut1 : ℝ → ℝ) (t : ℝ) : ℝ :=
  gmst (ut1 (t + 2400000.5)) (t + 2400000.5)

/-- `solar_daily_state` (daily_events.rs 547-573), with the hour angle in turns. -/
noncomputable def ephem (ut1 : ℝ → ℝ) (s : Site) (mid : ℝ) : Option (Ephem ℝ) :=
  let n := mid - j2000
  let dec := Real.arcsin (Real.sin (obliquity n) * Real.sin (longitude n))
  let lst := remEuclid (gmstDefault ut1 mid + rad s.lon) tau
  let hourAngle := remEuclid (lst - rightAscension n) tau
  some ⟨Real.sin dec, Real.cos dec, hourAngle / tau⟩

/-- The predictor's view of the Sun; `precise` is the full ephemeris (not modelled here).
`arc` and `swing` are `acos(c)/2π` and `sin(acos c)·2π` (400-410, 487-491). -/
noncomputable def sky (ut1 : ℝ → ℝ) (s : Site) (precise : ℝ → ℝ) : Sky ℝ where
  precise := precise
  fast := fastSinAlt s
  sinLat := Real.sin (rad s.lat)
  cosLat := Real.cos (rad s.lat)
  ephem := ephem ut1 s
  arc c := Real.arccos c / tau
  swing c := Real.sin (Real.arccos c) * tau

end Verif.SunModel
