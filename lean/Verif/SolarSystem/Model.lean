import Verif.COrbit.Model
import Mathlib.Analysis.InnerProductSpace.PiL2

/-
The constants of the solar system (src/bodies/solar_system.rs, comet.rs, asteroid.rs), the period of an orbit
(planets.rs 222-231, comet.rs 151-156) and the planets through the C interface (siderust-ffi/src/bodies.rs 251-361).

Decimal constants are rational numbers; periods are over the reals. `KeplerianOrbit::new` keeps its arguments.
-/
namespace Verif.SolarSystem
open Verif.Ffi (Status)

/-- `KeplerianOrbit` (src/astro/orbit.rs 73-): semi-major axis in AU, eccentricity, inclination, node, argument of
periapsis and mean anomaly in degrees, Julian date of the epoch. -/
structure Elements where
  a : ℚ
  e : ℚ
  i : ℚ
  node : ℚ
  peri : ℚ
  anomaly : ℚ
  epoch : ℚ
  deriving DecidableEq

/-- `Planet` (planets.rs 77-86): kilograms, kilometres. -/
structure Planet where
  mass : ℚ
  radius : ℚ
  orbit : Elements
  albedo : Option ℚ
  deriving DecidableEq

/-- `Satellite` (satellite.rs 47-58). -/
structure Satellite where
  name : String
  mass : ℚ
  radius : ℚ
  orbit : Elements
  albedo : Option ℚ
  deriving DecidableEq

/-- `MERCURY` (solar_system.rs 257-270). -/
def mercury : Planet := ⟨3.3011e23, 2439.7, ⟨0.38709893, 0.20563069, 7.00487, 48.33167, 29.12478, 174.79439, 2451545⟩, some 0.068⟩

/-- `VENUS` (solar_system.rs 284-297). -/
def venus : Planet := ⟨4.8675e24, 6051.8, ⟨0.72333199, 0.00677323, 3.39471, 76.68069, 54.85229, 50.44675, 2451545⟩, some 0.76⟩

/-- `EARTH` (solar_system.rs 311-324). -/
def earth : Planet := ⟨5.97237e24, 6371.0, ⟨1.00000011, 0.01671022, 0.00005, -11.26064, 114.20783, 357.51716, 2451545⟩, some 0.306⟩

/-- `MARS` (solar_system.rs 366-379). -/
def mars : Planet := ⟨6.4171e23, 3389.5, ⟨1.52366231, 0.09341233, 1.85061, 49.57854, 286.46230, 19.41248, 2451545⟩, some 0.25⟩

/-- `JUPITER` (solar_system.rs 393-406). -/
def jupiter : Planet := ⟨1.8982e27, 69911.0, ⟨5.20336301, 0.04839266, 1.30530, 100.55615, 274.19770, 19.65053, 2451545⟩, some 0.503⟩

/-- `SATURN` (solar_system.rs 420-433). -/
def saturn : Planet := ⟨5.6834e26, 58232.0, ⟨9.53707032, 0.05415060, 2.48446, 113.71504, 338.71690, 317.51238, 2451545⟩, some 0.342⟩

/-- `URANUS` (solar_system.rs 447-460). -/
def uranus : Planet := ⟨8.6810e25, 25362.0, ⟨19.19126393, 0.04716771, 0.76986, 74.22988, 96.73436, 142.26794, 2451545⟩, some 0.3⟩

/-- `NEPTUNE` (solar_system.rs 474-487). -/
def neptune : Planet := ⟨1.02409e26, 24622.0, ⟨30.06896348, 0.00858587, 1.76917, 131.72169, 273.24966, 259.90868, 2451545⟩, some 0.29⟩

/-- `PLUTO` (solar_system.rs 501-514). -/
def pluto : Planet := ⟨1.303e22, 1188.3, ⟨39.48168677, 0.24880766, 17.14175, 110.30347, 113.76329, 14.86205, 2451545⟩, some 0.52⟩

/-- `CERES` (solar_system.rs 521-534). -/
def ceres : Planet := ⟨9.393e20, 473.0, ⟨2.7675, 0.0758, 10.5941, 80.3055, 73.5977, 95.9892, 2451545⟩, some 0.09⟩

/-- `HAUMEA` (solar_system.rs 537-550). -/
def haumea : Planet := ⟨4.006e21, 620.0, ⟨43.218, 0.195, 28.19, 121.9, 239.1, 205.7, 2451545⟩, some 0.8⟩

/-- `MAKEMAKE` (solar_system.rs 553-566). -/
def makemake : Planet := ⟨3.1e21, 715.0, ⟨45.791, 0.159, 29.01, 79.3, 286.1, 159.8, 2451545⟩, some 0.81⟩

/-- `ERIS` (solar_system.rs 569-582). -/
def eris : Planet := ⟨1.66e22, 1163.0, ⟨67.864, 0.44177, 44.04, 35.95, 151.231, 204.17, 2451545⟩, some 0.96⟩

/-- `MOON` (solar_system.rs 338-352). -/
def moon : Satellite := ⟨"Moon", 7.346e22, 1737.4, ⟨2.566881e-6, 0.0549, 5.145, 125.08, 318.15, 135.27, 2451545⟩, some 0.12⟩

/-- `IO` (solar_system.rs 592-607). -/
def io : Satellite := ⟨"Io", 8.9319e22, 1821.6, ⟨0.002823, 0.0041, 0.036, 43.977, 84.129, 171.016, 2451545⟩, some 0.62⟩

/-- `EUROPA` (solar_system.rs 610-624). -/
def europa : Satellite := ⟨"Europa", 4.7998e22, 1560.8, ⟨0.004485, 0.009, 0.465, 219.106, 88.970, 324.528, 2451545⟩, some 0.67⟩

/-- `GANYMEDE` (solar_system.rs 627-641). -/
def ganymede : Satellite := ⟨"Ganymede", 1.4819e23, 2634.1, ⟨0.007155, 0.0013, 0.177, 63.552, 192.417, 317.654, 2451545⟩, some 0.43⟩

/-- `CALLISTO` (solar_system.rs 644-658). -/
def callisto : Satellite := ⟨"Callisto", 1.0759e23, 2410.3, ⟨0.012585, 0.0074, 0.192, 298.848, 52.643, 51.483, 2451545⟩, some 0.17⟩

/-- `TITAN` (solar_system.rs 661-675). -/
def titan : Satellite := ⟨"Titan", 1.3452e23, 2574.73, ⟨0.008167, 0.0288, 0.34854, 168.650, 186.585, 30.744, 2451545⟩, some 0.22⟩

/-- `TRITON` (solar_system.rs 678-692). -/
def triton : Satellite := ⟨"Triton", 2.14e22, 1353.4, ⟨0.002371, 0.000016, 156.865, 216.732, 185.965, 144.960, 2451545⟩, some 0.76⟩

/-- `HALLEY` (comet.rs 163-176), its orbit. -/
def halley : Elements := ⟨17.834144, 0.9671429, 162.26269, 58.42008, 111.33249, 38.384, 2451545⟩

/-- `ENCKE` (comet.rs 179-192), its orbit. -/
def encke : Elements := ⟨2.215080, 0.850219, 11.780, 334.568, 186.545, 163.105, 2451545⟩

/-- `HALE_BOPP` (comet.rs 195-208), its orbit. -/
def haleBopp : Elements := ⟨286.538, 0.995086, 89.425, 282.472, 130.589, 17.258, 2451545⟩

/-- `CERES_AST` (asteroid.rs 174-189): its orbit and albedo. -/
def ceresAst : Elements × ℚ := (⟨2.7675, 0.0758, 10.5941, 80.3055, 73.5977, 95.9892, 2451545⟩, 0.09)

/-- `BENNU` (asteroid.rs 192-207): its orbit and albedo. -/
def bennu : Elements × ℚ := (⟨1.1264, 0.203745, 6.03494, 2.06084, 66.2221, 101.703, 2451545⟩, 0.044)

/-- `APOPHIS` (asteroid.rs 210-225): its orbit and albedo. -/
def apophis : Elements × ℚ := (⟨0.922495, 0.191197, 3.33146, 204.4722, 126.4001, 204.479, 2451545⟩, 0.23)

/-- `PLANETS` (solar_system.rs 768-777). -/
def planets : List Planet := [mercury, venus, earth, mars, jupiter, saturn, uranus, neptune]

/-- `DWARF_PLANETS` (solar_system.rs 585). -/
def dwarfPlanets : List Planet := [pluto, ceres, haumea, makemake, eris]

/-- `MAJOR_MOONS` (solar_system.rs 695-703). -/
def majorMoons : List Satellite := [moon, io, europa, ganymede, callisto, titan, triton]

/-- `OrbitExt::period` (planets.rs 222-231), seconds. -/
noncomputable def period (o : Elements) : ℝ := Orbit.periodDays o.a * 86400

/-- `Comet::period_years` (comet.rs 150-156). -/
noncomputable def periodYears (o : Elements) : ℝ := o.a * Real.sqrt o.a

/-- `HourAngles::from_hms` (qtty) and the conversion to degrees: the sign of the hours is that of the angle. -/
def hmsDegrees (h m s : ℚ) : ℚ := if 0 ≤ h then 15 * (h + m / 60 + s / 3600) else -(15 * (-h + m / 60 + s / 3600))

/-- `SUN` (solar_system.rs 229-243): declination and right ascension, degrees. -/
def sunDec : ℚ := hmsDegrees (-23) 0 0
def sunRa : ℚ := hmsDegrees 18 44 48

/-- A place of latitude, longitude (degrees) and distance (`LagrangePoint::position`, solar_system.rs 711-718). -/
structure Place where
  lat : ℚ
  lon : ℚ
  dist : ℚ

/-- `SUN_EARTH_L1` (solar_system.rs 721-729). -/
def sunEarthL1 : Place := ⟨0, 0, 0.99⟩
/-- `SUN_EARTH_L2` (solar_system.rs 730-738). -/
def sunEarthL2 : Place := ⟨0, 180, 1.01⟩

/-! ### C interface -/

/-- `SiderustOrbit::from_rust` (siderust-ffi/src/types.rs 506-516). -/
def orbitC (o : Elements) : COrbit.CElements :=
  ⟨some o.a, some o.e, some o.i, some o.node, some o.peri, some o.anomaly, some o.epoch⟩

/-- `SiderustPlanet` (siderust-ffi/src/types.rs 823-830). -/
structure CPlanet where
  mass : ℝ
  radius : ℝ
  orbit : COrbit.CElements

/-- The body of each `siderust_planet_*` (siderust-ffi/src/bodies.rs 251-361) with `SiderustPlanet::from_rust` (types.rs 834-840). -/
def planetOut (p : Planet) (out : Bool) : Status × Option CPlanet :=
  if out then (.ok, some ⟨p.mass, p.radius, orbitC p.orbit⟩) else (.nullPointer, none)

/-- The functions of the C interface by the end of their names (siderust-ffi/src/bodies.rs 251-361). -/
def planetC : String → Option (Bool → Status × Option CPlanet)
  | "mercury" => some (planetOut mercury)
  | "venus" => some (planetOut venus)
  | "earth" => some (planetOut earth)
  | "mars" => some (planetOut mars)
  | "jupiter" => some (planetOut jupiter)
  | "saturn" => some (planetOut saturn)
  | "uranus" => some (planetOut uranus)
  | "neptune" => some (planetOut neptune)
  | _ => none

end Verif.SolarSystem
