import Verif.Place.Model
import Verif.Star.Model
import Verif.Ffi.Model

/-!
# Targets: catalogue places with proper motion

Model of `src/targets/target.rs` (the record), `src/targets/transform.rs` and of the
generic targets of the C interface (`siderust-ffi/src/target.rs`).

Simplifications: exact real arithmetic; a number from C is a real number or not finite (`none`), the
angles of a fixed direction are finite; the square root of a sum of squares does not overflow; that
`affn`'s constructors reduce angles to their usual ranges is left out; a direction is a place at
distance one.  The change of place belonging to a change of frame and centre is a parameter of
`convert`.
-/

namespace Verif.Targets

open Verif.Earth
open Verif.Horizon (len toCart polarOf azimuthOf)
open Verif.Sky (toRad toDeg)
open Verif.Star (Position ProperMotion)
open Verif.Ffi (Status)

/-- `CoordinateWithPM` (target.rs:55-62). -/
structure Target where
  position : Position
  time : ℝ
  motion : Option ProperMotion

/-- `to_cartesian`, `from_cartesian` of a spherical position (`affn`), angles in degrees. -/
noncomputable def vector (p : Position) : V3 := p.distance • toCart (toRad p.dec) (toRad p.ra)
noncomputable def ofVector (v : V3) : Position := ⟨toDeg (azimuthOf v), toDeg (polarOf v), len v⟩

/-- The conversion of a target (transform.rs:85-106): `turn` is the change of frame and centre at a
date. -/
noncomputable def convert (turn : ℝ → V3 → V3) (t : Target) : Target :=
  ⟨ofVector (turn t.time (vector t.position)), t.time, t.motion⟩

/-! ## Generic targets of the C interface -/

/-- `SiderustFrame` (siderust-ffi/src/types.rs:80-115). -/
inductive CFrame
  | icrs | eclipticMeanJ2000 | equatorialMeanJ2000 | equatorialMeanOfDate | equatorialTrueOfDate
  | horizontal | ecef | galactic | gcrs | eclipticOfDate | eclipticTrueOfDate | cirs | tirs | itrf | icrf
  deriving DecidableEq

/-- A number from C: `none` is an infinity or not a number. -/
abbrev Num := Option ℝ

/-- A direction in degrees. -/
structure CDir where
  polar : ℝ
  azimuth : ℝ
  frame : CFrame

/-- The coordinates of `SiderustGenericTargetData`. -/
inductive Coord
  | direction (d : CDir)
  | spherical (lon lat distance : Num) (frame : CFrame)
  | cartesian (x y z : Num) (frame : CFrame)

/-- `SiderustGenericTargetData`. -/
structure Data where
  coord : Coord
  epoch : Num
  hasMotion : Bool
  motion : ProperMotion

/-- `proper_motion_from_ffi` (target.rs:57-72). -/
def motionFrom (d : Data) : Option ProperMotion := if d.hasMotion then some d.motion else none

/-- `direction_payload_from_spherical_pos` (target.rs:116-131). -/
noncomputable def fromSpherical (lon lat distance : Num) (f : CFrame) : Except Status CDir :=
  match lon, lat, distance with
  | some l, some b, some r => if r ≤ 0 then .error .invalidArgument else .ok ⟨b, l, f⟩
  | _, _, _ => .error .invalidArgument

/-- `f64::EPSILON`. -/
noncomputable def epsilon : ℝ := 1 / 2 ^ 52

/-- `rem_euclid`. -/
noncomputable def remEuclid (x m : ℝ) : ℝ := x - m * ⌊x / m⌋

/-- `direction_payload_from_cartesian_pos` (target.rs:133-156). -/
noncomputable def fromCartesian (x y z : Num) (f : CFrame) : Except Status CDir :=
  match x, y, z with
  | some x, some y, some z =>
    let norm := Real.sqrt (x * x + y * y + z * z)
    if norm ≤ epsilon then .error .invalidArgument
    else
      let x := x / norm
      let y := y / norm
      let z := z / norm
      .ok ⟨toDeg (atan2 z (Real.sqrt (x * x + y * y))), remEuclid (toDeg (atan2 y x)) 360, f⟩
  | _, _, _ => .error .invalidArgument

/-- The frames `icrs_direction_from_spherical_dir` converts (target.rs:83-111), in the network. -/
def netFrame : CFrame → Option Frame
  | .icrf => some .icrf
  | .eclipticMeanJ2000 => some .eclipticJ2000
  | .equatorialMeanJ2000 => some .meanJ2000
  | .equatorialMeanOfDate => some .meanOfDate
  | .equatorialTrueOfDate => some .trueOfDate
  | _ => none

/-- `icrs_direction_from_spherical_dir` (target.rs:74-114). The network serves all five frames
(`accepted`). -/
noncomputable def toIcrs (c : Ctx) (d : CDir) (jd : ℝ) : Except Status Position :=
  if d.frame = .icrs then .ok ⟨d.azimuth, d.polar, 1⟩
  else match netFrame d.frame with
    | none => .error .invalidFrame
    | some f => match rotation c jd f .icrs with
      | none => .error .invalidFrame
      | some m => .ok (ofVector (m.mulVec (toCart (toRad d.polar) (toRad d.azimuth))))

/-- The choice of the payload (target.rs:162-170). -/
noncomputable def payload : Coord → Except Status CDir
  | .direction p => .ok p
  | .spherical l b r f => fromSpherical l b r f
  | .cartesian x y z f => fromCartesian x y z f

/-- `build_inner_target` (target.rs:158-178). -/
noncomputable def build (c : Ctx) (d : Data) : Except Status Target :=
  match d.epoch with
  | none => .error .invalidArgument
  | some jd =>
    match payload d.coord with
    | .error e => .error e
    | .ok p => match toIcrs c p jd with
      | .error e => .error e
      | .ok q => .ok ⟨q, jd, motionFrom d⟩

end Verif.Targets
