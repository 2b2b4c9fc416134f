import Verif.Earth.Model

/-!
# Changing the centre of a position; body-fixed frames

Model of `src/coordinates/transform/providers/{mod,centers_standard,centers_planetary,
centers_lagrange,frames_planetary}.rs`, `src/coordinates/transform/centers/mod.rs:162-183`,
`src/coordinates/transform/ext.rs:340-400` and `src/astro/orientation.rs:45-90`.

Simplifications: exact real arithmetic; the ephemerides (`Ephemeris::{sun,earth}_barycentric`,
`moon_geocentric`), the planetary series (`vsop87e`), Pluto's Keplerian position and the five
libration points are parameters; the units of a position are a factor (units per astronomical
unit).  A pair of types without an implementation, a compile-time error, is `none`.
`Rotation3::from_euler_zxz` of the absent crate `affn` is a parameter.
-/

namespace Verif.Centers

open Verif.Earth (M3 V3)
open scoped Matrix

/-- The planets with a VSOP87 series (centers_planetary.rs:60-66). -/
inductive Planet
  | mercury | venus | mars | jupiter | saturn | uranus | neptune
  deriving DecidableEq

/-- The libration points (centers_lagrange.rs). -/
inductive Libration
  | l1 | l2 | l3 | l4 | l5
  deriving DecidableEq

/-- The reference centres without parameters. -/
inductive Center
  | barycentric | heliocentric | geocentric
  | planet (p : Planet)
  | pluto
  | moon
  | libration (l : Libration)
  deriving DecidableEq

/-- What an `Ephemeris` supplies: ecliptic J2000 positions, the Moon's in kilometres. -/
structure Ephemeris where
  sun : ℝ → V3
  earth : ℝ → V3
  moon : ℝ → V3

/-- What does not come from the ephemeris: planetary series, Pluto's orbit, libration points, and
the kilometres in an astronomical unit. -/
structure Tables where
  vsop87e : Planet → ℝ → V3
  pluto : ℝ → V3
  libration : Libration → ℝ → V3
  kmPerAu : ℝ

/-- `Position::to_unit::<AstronomicalUnit>` of a position in kilometres. -/
noncomputable def toAu (t : Tables) (x : V3) : V3 := fun i => x i / t.kmPerAu

/-! ## Body-fixed frames -/

/-- The bodies with IAU rotation constants (frames_planetary.rs:43-51). -/
inductive Body
  | mercury | venus | mars | moon | jupiter | saturn | uranus | neptune | pluto
  deriving DecidableEq

/-- `IauRotationParams` (orientation.rs:45-58), in degrees; pole rates per century, meridian rate
per day. -/
structure RotationParams where
  alpha0 : ℚ
  alphaRate : ℚ
  delta0 : ℚ
  deltaRate : ℚ
  w0 : ℚ
  wRate : ℚ
  deriving DecidableEq

/-- The constants (src/bodies/solar_system.rs:144-217). -/
def rotationParams : Body → RotationParams
  | .mercury => ⟨281.0103, -0.0328, 61.4155, -0.0049, 329.5988, 6.1385108⟩
  | .venus => ⟨272.76, 0, 67.16, 0, 160.20, -1.4813688⟩
  | .mars => ⟨317.269, -0.10927, 54.432, -0.05827, 176.049, 350.891982443⟩
  | .moon => ⟨269.9949, 0.0031, 66.5392, 0.0130, 38.3213, 13.17635815⟩
  | .jupiter => ⟨268.057, -0.006, 64.495, 0.002, 284.95, 870.536⟩
  | .saturn => ⟨40.589, -0.036, 83.537, -0.004, 38.90, 810.7939024⟩
  | .uranus => ⟨257.311, 0, -15.175, 0, 203.81, -501.1600928⟩
  | .neptune => ⟨299.36, 0, 43.46, 0, 249.978, 541.1397757⟩
  | .pluto => ⟨132.993, 0, -6.163, 0, 302.695, 56.3625225⟩

/-- `alpha0`, `delta0`, `w` (orientation.rs:66-90), in degrees. -/
noncomputable def alphaDeg (p : RotationParams) (jd : ℝ) : ℝ :=
  p.alpha0 + p.alphaRate * ((jd - 2451545) / 36525)
noncomputable def deltaDeg (p : RotationParams) (jd : ℝ) : ℝ :=
  p.delta0 + p.deltaRate * ((jd - 2451545) / 36525)
noncomputable def wDeg (p : RotationParams) (jd : ℝ) : ℝ :=
  p.w0 + p.wRate * (jd - 2451545)

/-- Degrees to radians. -/
noncomputable def rad (x : ℝ) : ℝ := x * Real.pi / 180

/-- `Rotation3::from_euler_zxz`, a parameter. -/
abbrev Euler := ℝ → ℝ → ℝ → M3

/-- `iau_body_fixed_to_icrs` (providers/mod.rs:452-462). -/
noncomputable def bodyFixedToIcrs (e : Euler) (p : RotationParams) (jd : ℝ) : M3 :=
  e (-rad (wDeg p jd)) (-(rad 90 - rad (deltaDeg p jd))) (-(rad (alphaDeg p jd) + rad 90))

/-- The frames: those of `Verif.Earth` and the body-fixed ones. -/
inductive Frame
  | sky (f : Verif.Earth.Frame)
  | fixed (b : Body)
  deriving DecidableEq

/-- `FrameRotationProvider` extended by `frames_planetary.rs:19-71` and the identity
(providers/mod.rs:112-123): body-fixed to and from ICRS, and through ICRS
(`impl_via_icrs_bidirectional`, mod.rs:285-307) to and from the ecliptic and EME2000. -/
noncomputable def rotation (c : Verif.Earth.Ctx) (e : Euler) (jd : ℝ) : Frame → Frame → Option M3
  | .sky a, .sky b => Verif.Earth.rotation c jd a b
  | .fixed b, .sky .icrs => some (bodyFixedToIcrs e (rotationParams b) jd)
  | .sky .icrs, .fixed b => some (bodyFixedToIcrs e (rotationParams b) jd)ᵀ
  | .sky .eclipticJ2000, .fixed b =>
    (Verif.Earth.rotation c jd .eclipticJ2000 .icrs).map fun m =>
      (bodyFixedToIcrs e (rotationParams b) jd)ᵀ * m
  | .fixed b, .sky .eclipticJ2000 =>
    (Verif.Earth.rotation c jd .eclipticJ2000 .icrs).map fun m =>
      ((bodyFixedToIcrs e (rotationParams b) jd)ᵀ * m)ᵀ
  | .sky .eme2000, .fixed b =>
    (Verif.Earth.rotation c jd .eme2000 .icrs).map fun m =>
      (bodyFixedToIcrs e (rotationParams b) jd)ᵀ * m
  | .fixed b, .sky .eme2000 =>
    (Verif.Earth.rotation c jd .eme2000 .icrs).map fun m =>
      ((bodyFixedToIcrs e (rotationParams b) jd)ᵀ * m)ᵀ
  | .fixed a, .fixed b => if a = b then some 1 else none
  | .fixed _, .sky _ => none
  | .sky _, .fixed _ => none

/-! ## Centre shifts -/

/-- How an implementation of `CenterShiftProvider` obtains its shift: zero (mod.rs:125-142), an
ecliptic vector rotated to the frame (`rotate_shift_from_ecliptic`, 269-283), the negation of the
opposite pair (`inverse_shift`, 190-198) or the sum through the barycentre (`compose_shift`,
202-213). -/
inductive Step
  | zero
  | rotated (v : V3)
  | inverse
  | viaBarycentre

/-- The ecliptic vector of the direct shift to the barycentre: `centers_standard.rs:27-39, 63-75`,
`centers_planetary.rs:40-66, 77-104, 115-138`, `centers_lagrange.rs`. -/
noncomputable def direct (t : Tables) (eph : Ephemeris) (jd : ℝ) : Center → V3
  | .barycentric => fun _ => 0
  | .heliocentric => eph.sun jd
  | .geocentric => eph.earth jd
  | .planet p => t.vsop87e p jd
  | .pluto => fun i => t.pluto jd i + eph.sun jd i
  | .moon => fun i => toAu t (eph.moon jd) i + eph.earth jd i
  | .libration l => t.libration l jd

/-- The implementations: `centers_standard.rs:27-124`, the macros of `providers/mod.rs:322-442`,
`centers_planetary.rs:40-183`, `centers_lagrange.rs`. -/
noncomputable def step (t : Tables) (eph : Ephemeris) (jd : ℝ) : Center → Center → Option Step
  | .barycentric, .barycentric => some .zero
  | .barycentric, _ => some .inverse
  | a, .barycentric => some (.rotated (direct t eph jd a))
  | .heliocentric, .heliocentric => some .zero
  | .geocentric, .geocentric => some .zero
  | .heliocentric, .geocentric => some .viaBarycentre
  | .geocentric, .heliocentric => some .inverse
  | .geocentric, .moon => some (.rotated fun i => -toAu t (eph.moon jd) i)
  | .moon, .geocentric => some .inverse
  | .heliocentric, _ => some .viaBarycentre
  | _, .heliocentric => some .inverse
  | .geocentric, _ => some .viaBarycentre
  | _, .geocentric => some .inverse
  | a, b => if a = b then some .zero else none

/-- The calls unfolded; no implementation needs more than three nested calls. -/
noncomputable def shiftGo (t : Tables) (eph : Ephemeris) (jd : ℝ) (r : M3) :
    Nat → Center → Center → Option V3
  | 0, _, _ => none
  | n + 1, a, b =>
    match step t eph jd a b with
    | none => none
    | some .zero => some fun _ => 0
    | some (.rotated v) => some (r.mulVec v)
    | some .inverse => (shiftGo t eph jd r n b a).map fun s i => -s i
    | some .viaBarycentre =>
      (shiftGo t eph jd r n a .barycentric).bind fun l =>
        (shiftGo t eph jd r n .barycentric b).map fun s i => l i + s i

/-- `center_shift` (providers/mod.rs:466-…): the shift from `a` to `b` in frame `f`, in
astronomical units.  The identity asks nothing of the frame, every other pair a rotation from the
ecliptic. -/
noncomputable def shift (c : Verif.Earth.Ctx) (e : Euler) (t : Tables) (eph : Ephemeris) (jd : ℝ)
    (f : Frame) (a b : Center) : Option V3 :=
  if a = b then some fun _ => 0
  else (rotation c e jd (.sky .eclipticJ2000) f).bind fun r => shiftGo t eph jd r 4 a b

/-- `TransformCenter::to_center_as` (centers/mod.rs:162-183): `k` units per astronomical unit. -/
noncomputable def toCenter (c : Verif.Earth.Ctx) (e : Euler) (t : Tables) (eph : Ephemeris)
    (jd k : ℝ) (f : Frame) (a b : Center) (x : V3) : Option V3 :=
  (shift c e t eph jd f a b).map fun s i => x i + k * s i

/-- `to_frame_with` (ext.rs:355-372). -/
noncomputable def toFrame (c : Verif.Earth.Ctx) (e : Euler) (jd : ℝ) (f g : Frame) (x : V3) :
    Option V3 :=
  (rotation c e jd f g).map fun r => r.mulVec x

/-- `PositionAstroExt::to_with` (ext.rs:386-400): the centre in the old frame, then the frame. -/
noncomputable def toBoth (c : Verif.Earth.Ctx) (e : Euler) (t : Tables) (eph : Ephemeris)
    (jd k : ℝ) (f g : Frame) (a b : Center) (x : V3) : Option V3 :=
  (toCenter c e t eph jd k f a b x).bind (toFrame c e jd f g)

/-- `Transform::transform` for positions (transform/mod.rs:128-148): the frame in the old centre, then
the centre. -/
noncomputable def transform (c : Verif.Earth.Ctx) (e : Euler) (t : Tables) (eph : Ephemeris)
    (jd k : ℝ) (f g : Frame) (a b : Center) (x : V3) : Option V3 :=
  (toFrame c e jd f g x).bind (toCenter c e t eph jd k g a b)

end Verif.Centers
