import Mathlib.Analysis.SpecialFunctions.Pow.Real
import Mathlib.Analysis.SpecialFunctions.Trigonometric.Basic
import Verif.Text.Lines

/-!
# Aircraft atmosphere and dead reckoning, lunar photometry, body names and builders

Models /repo/src/bodies/aircraft/isa.rs, /repo/src/bodies/aircraft/inner.rs (296-349),
/repo/src/event/lunar/photometry.rs, /repo/src/formats/spice/naif.rs, /repo/src/ephemeris/mod.rs (131-183),
/repo/src/bodies/planets.rs, comet.rs and asteroid.rs. Arithmetic is exact, over the reals; units are left out.
-/

namespace Verif.Bodies

open Verif.Text

/-! ## Standard atmosphere (isa.rs) -/

namespace Isa

/-- isa.rs 48. -/
noncomputable def P0 : ℝ := 101325
/-- isa.rs 51. -/
noncomputable def T0 : ℝ := 288.15
/-- isa.rs 54. -/
noncomputable def tTropo : ℝ := 216.65
/-- isa.rs 57. -/
noncomputable def lapse : ℝ := -6.5e-3
/-- isa.rs 60. -/
noncomputable def hTropo : ℝ := 11000
/-- isa.rs 63. -/
noncomputable def M : ℝ := 0.0289644
/-- isa.rs 66. -/
noncomputable def R : ℝ := 8.314462618
/-- isa.rs 69. -/
noncomputable def G0 : ℝ := 9.80665
/-- isa.rs 72. -/
noncomputable def rEarth : ℝ := 6356766
/-- isa.rs 75. -/
noncomputable def expTrop : ℝ := G0 * M / (R * (-lapse))

/-- `p_tropo` (isa.rs 82-85). -/
noncomputable def pTropo : ℝ := P0 * (1 + lapse * hTropo / T0) ^ expTrop

/-- `pressure_at_altitude` (isa.rs 118-130). -/
noncomputable def pressure (h : ℝ) : ℝ :=
  if h ≤ hTropo then P0 * (1 + lapse * h / T0) ^ expTrop
  else pTropo * Real.exp (-G0 * M * (h - hTropo) / (R * tTropo))

/-- `pressure_altitude_m` (isa.rs 156-170). -/
noncomputable def pressureAltitude (p : ℝ) : ℝ :=
  if pTropo ≤ p then T0 / lapse * ((p / P0) ^ (1 / expTrop) - 1)
  else hTropo - R * tTropo / (G0 * M) * Real.log (p / pTropo)

/-- `temperature_at_altitude` (isa.rs 196-204). -/
noncomputable def temperature (h : ℝ) : ℝ := if h ≤ hTropo then T0 + lapse * h else tTropo

/-- `geopotential_altitude_m` (isa.rs 232-235). -/
noncomputable def geopotential (z : ℝ) : ℝ := rEarth * z / (rEarth + z)

/-- `geometric_altitude_m` (isa.rs 260-263). -/
noncomputable def geometric (h : ℝ) : ℝ := rEarth * h / (rEarth - h)

end Isa

/-! ## Dead reckoning (inner.rs) -/

/-- `AircraftState` (inner.rs); degrees, metres, metres per second. -/
structure Aircraft where
  lon : ℝ
  lat : ℝ
  height : ℝ
  speed : ℝ
  course : ℝ
  climb : ℝ

/-- `AircraftTrack::track` (inner.rs 308-349), from the stored state and its epoch, a day count, to another. The
arguments given to `Geodetic::new` are kept as they are. -/
noncomputable def track (s : Aircraft) (epoch jd : ℝ) : Aircraft :=
  let dt := (jd - epoch) * 86400
  let course := s.course * (Real.pi / 180)
  let lat := s.lat * (Real.pi / 180)
  let ds := s.speed * dt
  let dlat := ds * Real.cos course / 6371000 * (180 / Real.pi)
  let cosLat := max (Real.cos lat) 1e-9
  let dlon := ds * Real.sin course / (6371000 * cosLat) * (180 / Real.pi)
  { s with lon := s.lon + dlon, lat := s.lat + dlat, height := s.height + s.climb * dt }

/-! ## Light of the Moon (photometry.rs) -/

/-- A float: a real number, an infinity or not a number. -/
inductive X where
  | fin (x : ℝ)
  | inf (negative : Bool)
  | nan

/-- `lunar_full_moon_albedo_jones2013` (photometry.rs 57-63) at a finite wavelength. -/
noncomputable def albedo (nm : ℝ) : ℝ :=
  let l := min (max nm 300) 1100
  0.075 + 0.065 * ((l - 300) / 800)

/-- The same at any wavelength: `clamp` keeps NaN and moves infinities to the ends. -/
noncomputable def albedoX : X → X
  | .fin x => .fin (albedo x)
  | .inf false => .fin (albedo 1100)
  | .inf true => .fin (albedo 300)
  | .nan => .nan

/-- `lunar_phase_attenuation_jones2013` (photometry.rs 79-82) at a finite angle. -/
noncomputable def attenuation (phase : ℝ) : ℝ :=
  let a := |phase| * (180 / Real.pi)
  (10 : ℝ) ^ (-0.4 * (0.026 * a + 4.0e-9 * a ^ 4))

/-- The same at any angle: an infinite one gives `10^-∞`. -/
noncomputable def attenuationX : X → X
  | .fin x => .fin (attenuation x)
  | .inf _ => .fin 0
  | .nan => .nan

/-- The product of two floats of which an infinite one does not occur here. -/
noncomputable def mulX : X → X → X
  | .fin x, .fin y => .fin (x * y)
  | _, _ => .nan

/-- `lunar_albedo_jones2013` (photometry.rs 95-99). -/
noncomputable def moonAlbedo (phase nm : X) : X := mulX (albedoX nm) (attenuationX phase)

/-- `reflected_lunar_spectral_radiance_jones2013` (photometry.rs 120-138); `radius` and `mean` are `MEAN_MOON_RADIUS`
and `MEAN_MOON_DISTANCE`. -/
noncomputable def radiance (radius mean : ℝ) (irradiance nm phase distance : X) : X :=
  match irradiance, distance with
  | .fin e, .fin d =>
    if d ≤ 0 then .nan
    else mulX (mulX (.fin (e * (radius / d) ^ 2)) (moonAlbedo phase nm)) (.fin ((mean / d) ^ 2))
  | _, _ => .nan

/-! ## Names of bodies (naif.rs, ephemeris/mod.rs) -/

/-- The table of naif.rs 26-47. -/
def nameTable : List (List String × Int) := [
  (["SSB", "SOLAR SYSTEM BARYCENTER"], 0),
  (["MERCURY BARYCENTER"], 1),
  (["VENUS BARYCENTER"], 2),
  (["EMB", "EARTH BARYCENTER", "EARTH MOON BARYCENTER"], 3),
  (["MARS BARYCENTER"], 4),
  (["JUPITER BARYCENTER"], 5),
  (["SATURN BARYCENTER"], 6),
  (["URANUS BARYCENTER"], 7),
  (["NEPTUNE BARYCENTER"], 8),
  (["PLUTO BARYCENTER", "PLUTO"], 9),
  (["SUN"], 10),
  (["MERCURY"], 199),
  (["VENUS"], 299),
  (["EARTH"], 399),
  (["MARS"], 499),
  (["JUPITER"], 599),
  (["SATURN"], 699),
  (["URANUS"], 799),
  (["NEPTUNE"], 899),
  (["MOON"], 301)]

/-- `naif_id_for_name` (naif.rs 24-48). -/
def naifId (name : Str) : Option Int :=
  let n := upper (trim name)
  (nameTable.find? fun p => p.1.any (·.toList == n)).map (·.2)

/-- `MajorPlanet` (ephemeris/mod.rs 133-148). -/
inductive Planet where
  | mercury | venus | mars | jupiter | saturn | uranus | neptune
deriving DecidableEq

/-- `system_barycenter_naif_id` (ephemeris/mod.rs 152-162). -/
def barycenterId : Planet → Int
  | .mercury => 1 | .venus => 2 | .mars => 4 | .jupiter => 5 | .saturn => 6 | .uranus => 7 | .neptune => 8

/-- `center_naif_id` (ephemeris/mod.rs 165-175). -/
def centerId : Planet → Int
  | .mercury => 199 | .venus => 299 | .mars => 499 | .jupiter => 599 | .saturn => 699 | .uranus => 799 | .neptune => 899

/-! ## Builders (planets.rs 134-195, comet.rs 89-128, asteroid.rs 114-167) -/

section builders

variable {M L O A S C : Type}

/-- `PlanetBuilder` (planets.rs 135-140). -/
structure PlanetB (M L O A : Type) where
  mass : Option M := none
  radius : Option L := none
  orbit : Option O := none
  albedo : Option A := none

/-- `Planet` (planets.rs 77-86). -/
structure PlanetR (M L O A : Type) where
  mass : M
  radius : L
  orbit : O
  albedo : Option A

/-- Calls of setters (planets.rs 144-165). -/
inductive PlanetCall (M L O A : Type) where
  | mass (m : M) | radius (r : L) | orbit (o : O) | albedo (a : A)

def PlanetB.call (b : PlanetB M L O A) : PlanetCall M L O A → PlanetB M L O A
  | .mass m => { b with mass := some m }
  | .radius r => { b with radius := some r }
  | .orbit o => { b with orbit := some o }
  | .albedo a => { b with albedo := some a }

/-- `PlanetBuilderError` (planets.rs 123-130). -/
inductive PlanetErr where
  | mass | radius | orbit
deriving DecidableEq

/-- `try_build` (planets.rs 168-175). -/
def PlanetB.tryBuild (b : PlanetB M L O A) : Except PlanetErr (PlanetR M L O A) :=
  match b.mass with
  | none => .error .mass
  | some m => match b.radius with
    | none => .error .radius
    | some r => match b.orbit with
      | none => .error .orbit
      | some o => .ok ⟨m, r, o, b.albedo⟩

/-- `build` (planets.rs 179-181); `none` is a panic. -/
def PlanetB.build (b : PlanetB M L O A) : Option (PlanetR M L O A) := b.tryBuild.toOption

/-- `build_unchecked` (planets.rs 184-194); `none` is a panic. -/
def PlanetB.buildUnchecked (b : PlanetB M L O A) : Option (PlanetR M L O A) :=
  match b.mass, b.radius, b.orbit with
  | some m, some r, some o => some ⟨m, r, o, none⟩
  | _, _, _ => none

/-- `CometBuilder` (comet.rs 90-95); `F` is `OrbitFrame`. -/
structure CometB (S L O F : Type) where
  name : Option S := none
  tail : Option L := none
  orbit : Option O := none
  reference : Option F := none

/-- Calls of setters (comet.rs 99-117). -/
inductive CometCall (S L O F : Type) where
  | name (s : S) | tail (l : L) | orbit (o : O) | reference (f : F)

def CometB.call {F : Type} (b : CometB S L O F) : CometCall S L O F → CometB S L O F
  | .name s => { b with name := some s }
  | .tail l => { b with tail := some l }
  | .orbit o => { b with orbit := some o }
  | .reference f => { b with reference := some f }

/-- `build` (comet.rs 120-127); `none` is a panic, `helio` is `OrbitFrame::Heliocentric`. -/
def CometB.build {F : Type} (helio : F) (b : CometB S L O F) : Option (S × L × O × F) :=
  match b.name, b.tail, b.orbit with
  | some s, some l, some o => some (s, l, o, b.reference.getD helio)
  | _, _, _ => none

/-- `AsteroidBuilder` (asteroid.rs 115-122). -/
structure AsteroidB (S C O A : Type) where
  name : Option S := none
  designation : Option S := none
  composition : Option S := none
  kind : Option C := none
  orbit : Option O := none
  albedo : Option A := none

/-- Calls of setters (asteroid.rs 126-154). -/
inductive AsteroidCall (S C O A : Type) where
  | name (s : S) | designation (s : S) | composition (s : S) | kind (c : C) | orbit (o : O) | albedo (a : A)

def AsteroidB.call (b : AsteroidB S C O A) : AsteroidCall S C O A → AsteroidB S C O A
  | .name s => { b with name := some s }
  | .designation s => { b with designation := some s }
  | .composition s => { b with composition := some s }
  | .kind c => { b with kind := some c }
  | .orbit o => { b with orbit := some o }
  | .albedo a => { b with albedo := some a }

/-- `Asteroid` (asteroid.rs 55-68). -/
structure AsteroidR (S C O A : Type) where
  name : S
  designation : S
  composition : S
  kind : C
  orbit : O
  albedo : Option A

/-- `build` (asteroid.rs 157-166); `none` is a panic. -/
def AsteroidB.build (unknown : S) (mainBelt : C) (b : AsteroidB S C O A) : Option (AsteroidR S C O A) :=
  match b.name, b.designation, b.orbit with
  | some n, some d, some o => some ⟨n, d, b.composition.getD unknown, b.kind.getD mainBelt, o, b.albedo⟩
  | _, _, _ => none

end builders

/-- `Comet::period_years` (comet.rs 150-155). -/
noncomputable def periodYears (a : ℝ) : ℝ := a * Real.sqrt a

end Verif.Bodies
