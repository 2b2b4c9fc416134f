import Verif.Apparent.Model

/-!
# Azimuth conventions, horizontal coordinates and observed directions

Model of `src/coordinates/horizontal.rs`, `src/coordinates/transform/horizontal.rs`,
`src/coordinates/transform/frames/to_horizontal.rs` and
`src/coordinates/observation/observational_direction.rs`.

Simplifications: exact real arithmetic, angles in radians where the code converts from degrees at
once; the sidereal time of the instant is a parameter; `affn`'s conversions between vectors and
angles are the usual ones (`x = cos p cos a`, `y = cos p sin a`, `z = sin p`), on the zero vector
both angles are zero.  A quotient with denominator zero is `none`.
-/

namespace Verif.Horizon

open Verif.Apparent (atan2 wrap)

abbrev V3 := Fin 3 → ℝ

/-! ## Conventions -/

/-- horizontal.rs:79-88. -/
inductive Origin
  | north | south | east | west
  deriving DecidableEq

/-- horizontal.rs:92-97. -/
inductive Sense
  | clockwise | counterClockwise
  deriving DecidableEq

/-- horizontal.rs:104-109. -/
structure Convention where
  origin : Origin
  sense : Sense
  deriving DecidableEq

/-- horizontal.rs:121-151. -/
def northClockwise : Convention := ⟨.north, .clockwise⟩
def southClockwise : Convention := ⟨.south, .clockwise⟩
def northCounterClockwise : Convention := ⟨.north, .counterClockwise⟩
def eastCounterClockwise : Convention := ⟨.east, .counterClockwise⟩

/-- `origin_offset_cw` (178-185), degrees. -/
def offset : Origin → ℝ
  | .north => 0
  | .east => 90
  | .south => 180
  | .west => 270

/-- `Degrees::normalize`: to `[0°, 360°)`. -/
noncomputable def normalize (x : ℝ) : ℝ := x - ⌊x / 360⌋ * 360

/-- `convert_azimuth` (222-246). -/
noncomputable def convertAzimuth (az : ℝ) (src dst : Convention) : ℝ :=
  if src = dst then normalize az
  else
    let ncw := match src.sense with
      | .clockwise => az + offset src.origin
      | .counterClockwise => -az + offset src.origin
    let out := match dst.sense with
      | .clockwise => ncw - offset dst.origin
      | .counterClockwise => -(ncw - offset dst.origin)
    normalize out

/-- A horizontal direction: altitude and azimuth in degrees. -/
structure Dir where
  alt : ℝ
  az : ℝ

/-- `direction_to_native`, `direction_from_native`, `convert_direction` (280-344). -/
noncomputable def directionToNative (d : Dir) (src : Convention) : Dir :=
  ⟨d.alt, convertAzimuth d.az src northClockwise⟩
noncomputable def directionFromNative (d : Dir) (dst : Convention) : Dir :=
  ⟨d.alt, convertAzimuth d.az northClockwise dst⟩
noncomputable def convertDirection (d : Dir) (src dst : Convention) : Dir :=
  ⟨d.alt, convertAzimuth d.az src dst⟩

/-- A topocentric horizontal position with the site it belongs to. -/
structure Pos (S : Type) where
  site : S
  alt : ℝ
  az : ℝ
  distance : ℝ

/-- `position_to_native`, `position_from_native`, `convert_position` (365-434). -/
noncomputable def positionToNative {S : Type} (p : Pos S) (src : Convention) : Pos S :=
  ⟨p.site, p.alt, convertAzimuth p.az src northClockwise, p.distance⟩
noncomputable def positionFromNative {S : Type} (p : Pos S) (dst : Convention) : Pos S :=
  ⟨p.site, p.alt, convertAzimuth p.az northClockwise dst, p.distance⟩
noncomputable def convertPosition {S : Type} (p : Pos S) (src dst : Convention) : Pos S :=
  ⟨p.site, p.alt, convertAzimuth p.az src dst, p.distance⟩

/-- `flip_north_south` (466-468). -/
noncomputable def flipNorthSouth (az : ℝ) : ℝ := normalize (az + 180)

/-- `flip_sense` (493-495). -/
noncomputable def flipSense (az : ℝ) : ℝ := normalize (-az)

/-! ## Vectors and angles -/

noncomputable def len (v : V3) : ℝ := Real.sqrt (v 0 ^ 2 + v 1 ^ 2 + v 2 ^ 2)

/-- `affn`: angles to unit vector. -/
noncomputable def toCart (polar azimuth : ℝ) : V3 :=
  ![Real.cos polar * Real.cos azimuth, Real.cos polar * Real.sin azimuth, Real.sin polar]

/-- `affn`: vector to polar angle and azimuth. -/
noncomputable def polarOf (v : V3) : ℝ := Real.arcsin (v 2 / len v)
noncomputable def azimuthOf (v : V3) : ℝ := wrap (atan2 (v 1) (v 0))

/-! ## True equator of date -/

/-- `ToHorizontal::to_horizontal` (transform/horizontal.rs:90-133). -/
noncomputable def toHorizontal (gast lat lon : ℝ) (v : V3) : V3 :=
  let ra := azimuthOf v
  let dec := polarOf v
  let ha := gast + lon - ra
  let x := -Real.cos ha * Real.cos dec * Real.sin lat + Real.sin dec * Real.cos lat
  let y := -Real.sin ha * Real.cos dec
  let z := Real.cos ha * Real.cos dec * Real.cos lat + Real.sin dec * Real.sin lat
  let r := Real.sqrt (x * x + y * y)
  let az := wrap (if r ≠ 0 then atan2 y x else 0)
  let alt := atan2 z r
  toCart alt az

/-- `FromHorizontal::to_equatorial` (167-205). -/
noncomputable def toEquatorial (gast lat lon : ℝ) (h : V3) : V3 :=
  let az := azimuthOf h
  let alt := polarOf h
  let last := gast + lon
  let dec := Real.arcsin (max (-1) (min 1
    (Real.sin lat * Real.sin alt + Real.cos lat * Real.cos alt * Real.cos az)))
  let ha := atan2 (-Real.sin az * Real.cos alt)
    (Real.sin alt * Real.cos lat - Real.cos alt * Real.cos az * Real.sin lat)
  let ra := wrap (last - ha)
  toCart dec ra

/-- `to_horizontal_position` (236-257) and `to_equatorial_position` (284-305). -/
noncomputable def toHorizontalPosition (gast lat lon : ℝ) (p : V3) : V3 :=
  let h := toHorizontal gast lat lon (toCart (polarOf p) (azimuthOf p))
  len p • toCart (polarOf h) (azimuthOf h)
noncomputable def toEquatorialPosition (gast lat lon : ℝ) (p : V3) : V3 :=
  let e := toEquatorial gast lat lon (toCart (polarOf p) (azimuthOf p))
  len p • toCart (polarOf e) (azimuthOf e)

/-! ## Mean equator of date -/

/-- `equatorial_to_horizontal_angles` (to_horizontal.rs:70-96): altitude and azimuth. -/
noncomputable def horizontalAngles (gmst lat lon ra dec : ℝ) : ℝ × ℝ :=
  let ha := wrap (gmst + lon - ra)
  (Real.arcsin (Real.sin dec * Real.sin lat + Real.cos dec * Real.cos lat * Real.cos ha),
    atan2 (-Real.cos dec * Real.sin ha)
      (Real.sin dec * Real.cos lat - Real.cos dec * Real.cos ha * Real.sin lat))

/-- Division, `none` where the code has `0/0` or `x/0`. -/
noncomputable def quot (a b : ℝ) : Option ℝ := if b = 0 then none else some (a / b)

/-- `horizontal_to_equatorial_angles` (109-136): right ascension and declination. -/
noncomputable def equatorialAngles (gmst lat lon alt az : ℝ) : Option (ℝ × ℝ) :=
  let dec := Real.arcsin (Real.sin alt * Real.sin lat + Real.cos alt * Real.cos lat * Real.cos az)
  (quot (Real.sin alt - Real.sin lat * Real.sin dec) (Real.cos lat * Real.cos dec)).bind fun c =>
    (quot (-Real.cos alt * Real.sin az) (Real.cos dec)).map fun s =>
      (wrap (gmst + lon - atan2 s c), dec)

/-- `Transform` of a cartesian position from the mean equator of date (148-176). -/
noncomputable def meanToHorizontal (gmst lat lon : ℝ) (p : V3) : Option V3 :=
  let r := len p
  (quot (p 1) r).bind fun y => (quot (p 0) r).map fun x =>
    let dec := if 0 < r then Real.arcsin (p 2 / r) else 0
    let a := horizontalAngles gmst lat lon (atan2 y x) dec
    ![r * Real.cos a.1 * Real.cos a.2, -r * Real.cos a.1 * Real.sin a.2, r * Real.sin a.1]

/-- `Transform` of a cartesian position to the mean equator of date (183-214). -/
noncomputable def meanToEquatorial (gmst lat lon : ℝ) (h : V3) : Option V3 :=
  let r := len h
  (quot (-h 1) r).bind fun y => (quot (h 0) r).bind fun x =>
    let alt := if 0 < r then Real.arcsin (h 2 / r) else 0
    (equatorialAngles gmst lat lon alt (atan2 y x)).map fun e =>
      ![r * Real.cos e.2 * Real.cos e.1, r * Real.cos e.2 * Real.sin e.1, r * Real.sin e.2]

/-- A spherical position: polar angle, azimuth, distance. -/
structure Sph where
  polar : ℝ
  azimuth : ℝ
  distance : ℝ

/-- `Transform` of spherical positions (220-228): through cartesian. -/
noncomputable def meanToHorizontalSph (gmst lat lon : ℝ) (s : Sph) : Option Sph :=
  (meanToHorizontal gmst lat lon (s.distance • toCart s.polar s.azimuth)).map fun h =>
    ⟨polarOf h, azimuthOf h, len h⟩

/-! ## Observed directions -/

/-- `Astrometric::to_apparent` (observational_direction.rs:139-156): the frame change is a linear
isometry `m` to the mean equator of J2000, in which the observer's velocity `v` is given. -/
noncomputable def toApparent (c : ℝ) (m : Verif.Apparent.Vec3 ≃ₗᵢ[ℝ] Verif.Apparent.Vec3)
    (v u : Verif.Apparent.Vec3) : Verif.Apparent.Vec3 :=
  m.symm (Verif.Apparent.applyWithVelocity c (m u) v)

/-- `Apparent::to_astrometric` (240-257). -/
noncomputable def toAstrometric (c : ℝ) (m : Verif.Apparent.Vec3 ≃ₗᵢ[ℝ] Verif.Apparent.Vec3)
    (v u : Verif.Apparent.Vec3) : Verif.Apparent.Vec3 :=
  m.symm (Verif.Apparent.removeWithVelocity c (m u) v)

end Verif.Horizon
