import Verif.Ffi.Model
import Verif.Earth.Model
import Verif.Horizon.Model

/-!
# Frame changes through the C interface

Model of `siderust-ffi/src/coordinates.rs:35-905` and `siderust-ffi/src/context.rs`: directions and
positions turned from one frame to another, with the default transform context or with one made by
`siderust_context_create_*`, and directions turned to the horizon.

Simplifications: exact real arithmetic; `jd = none` stands for a date `try_jd_f64` refuses; null
pointers are flags; the rotations are those of `Verif.Earth`, and the conversions between vectors
and angles those of `Verif.Horizon`.
-/

namespace Verif.CFrames

open Verif.Earth (M3 Ctx Nut)
open Verif.Horizon (V3 toCart polarOf azimuthOf)
open Verif.Ffi (Status)

/-- `SiderustFrame` (siderust-ffi/src/types.rs:80-115). -/
inductive CFrame
  | icrs | eclipticMeanJ2000 | equatorialMeanJ2000 | equatorialMeanOfDate | equatorialTrueOfDate
  | horizontal | ecef | galactic | gcrs | eclipticOfDate | eclipticTrueOfDate | cirs | tirs | itrf | icrf
  deriving DecidableEq

/-- `SiderustEarthOrientationModel` (siderust-ffi/src/types.rs). -/
inductive Preset
  | iau2000A | iau2000B | iau2006 | iau2006A
  deriving DecidableEq

/-- What the library is built with: a context for everything but nutation, and the four nutation models. -/
structure World where
  base : Ctx
  nut : Preset → ℝ → Nut

/-- `with_model_ctx!` (coordinates.rs:50-75). -/
def World.ctx (w : World) (m : Preset) : Ctx := { w.base with nut := w.nut m }

/-- `AstroContext::default()`: `DefaultNutationModel` (src/coordinates/transform/context.rs:87). -/
def World.plain (w : World) : Ctx := { w.base with nut := w.nut .iau2006A }

/-- `SiderustContext`: the stored model (context.rs:14-24); `none` is the null pointer. -/
structure Context where
  model : Preset

/-- `SiderustContext::default` (context.rs:18-24) and `siderust_context_create_default` (28-40). -/
def createDefault (outNull : Bool) : Except Status Context :=
  if outNull then .error .nullPointer else .ok ⟨.iau2006A⟩

/-- `siderust_context_create_with_model` (context.rs:44-57). -/
def createWithModel (m : Preset) (outNull : Bool) : Except Status Context :=
  if outNull then .error .nullPointer else .ok ⟨m⟩

/-- `siderust_context_get_model` (context.rs:72-84). -/
def getModel (c : Option Context) (outNull : Bool) : Except Status Preset :=
  match c with
  | none => .error .nullPointer
  | some c => if outNull then .error .nullPointer else .ok c.model

/-- `require_context_model` (coordinates.rs:40-48). -/
def requireModel : Option Context → Except Status Preset
  | none => .error .nullPointer
  | some c => .ok c.model

/-- The frames of directions: `with_spherical_dir_in_frame!` (181-224), `with_cartesian_dir_in_frame!` (532-560). -/
def dirFrame : CFrame → Option Verif.Earth.Frame
  | .icrs => some .icrs
  | .eclipticMeanJ2000 => some .eclipticJ2000
  | .equatorialMeanJ2000 => some .meanJ2000
  | .equatorialMeanOfDate => some .meanOfDate
  | .equatorialTrueOfDate => some .trueOfDate
  | _ => none

/-- The frames of positions: `with_cartesian_pos_in_frame!` (767-810). -/
def posFrame : CFrame → Option Verif.Earth.Frame
  | .icrf => some .icrf
  | f => dirFrame f

/-- `frame_rotation_with`; the pairs used below all exist. -/
noncomputable def rot (c : Ctx) (jd : ℝ) (a b : Verif.Earth.Frame) : M3 := (Verif.Earth.rotation c jd a b).getD 0

/-- `transform_cartesian_dir_from!` (464-496) and the like: to ICRS, and from there to any other frame. -/
noncomputable def turn (c : Ctx) (jd : ℝ) (a b : Verif.Earth.Frame) (v : V3) : V3 :=
  let icrs := (rot c jd a .icrs).mulVec v
  if b = .icrs then icrs else (rot c jd .icrs b).mulVec icrs

/-- `SiderustCartesianPos` (types.rs). -/
structure CPos where
  v : V3
  frame : CFrame
  center : String
  unit : String

/-- The checks common to the transforms, in their order: frames of the source and the target, then the date. -/
def checked {α : Type} (table : CFrame → Option Verif.Earth.Frame) (src dst : CFrame) (jd : Option ℝ)
    (f : Verif.Earth.Frame → Verif.Earth.Frame → ℝ → α) : Except Status α :=
  match table src with
  | none => .error .invalidFrame
  | some a =>
    match table dst with
    | none => .error .invalidFrame
    | some b =>
      match jd with
      | none => .error .invalidArgument
      | some t => .ok (f a b t)

/-- `siderust_cartesian_dir_transform_frame` (571-611). -/
noncomputable def cartDir (w : World) (outNull : Bool) (v : V3) (src dst : CFrame) (jd : Option ℝ) : Except Status CPos :=
  if outNull then .error .nullPointer
  else checked dirFrame src dst jd fun a b t => ⟨turn w.plain t a b v, dst, "Barycentric", "AU"⟩

/-- `siderust_cartesian_dir_transform_frame_with_context` (615-659). -/
noncomputable def cartDirWith (w : World) (outNull : Bool) (c : Option Context) (v : V3) (src dst : CFrame) (jd : Option ℝ) : Except Status CPos :=
  if outNull then .error .nullPointer
  else (requireModel c).bind fun m => checked dirFrame src dst jd fun a b t => ⟨turn (w.ctx m) t a b v, dst, "Barycentric", "AU"⟩

/-- `siderust_cartesian_pos_transform_frame` (821-858). -/
noncomputable def cartPos (w : World) (outNull : Bool) (p : CPos) (dst : CFrame) (jd : Option ℝ) : Except Status CPos :=
  if outNull then .error .nullPointer
  else checked posFrame p.frame dst jd fun a b t => ⟨turn w.plain t a b p.v, dst, p.center, p.unit⟩

/-- `siderust_cartesian_pos_transform_frame_with_context` (862-905). -/
noncomputable def cartPosWith (w : World) (outNull : Bool) (c : Option Context) (p : CPos) (dst : CFrame) (jd : Option ℝ) : Except Status CPos :=
  if outNull then .error .nullPointer
  else (requireModel c).bind fun m => checked posFrame p.frame dst jd fun a b t => ⟨turn (w.ctx m) t a b p.v, dst, p.center, p.unit⟩

/-- Angles in degrees: `spherical::Direction`. -/
structure Angles where
  polar : ℝ
  azimuth : ℝ

noncomputable def vector (d : Angles) : V3 := toCart (d.polar * (Real.pi / 180)) (d.azimuth * (Real.pi / 180))
noncomputable def angles (v : V3) : Angles := ⟨polarOf v * (180 / Real.pi), azimuthOf v * (180 / Real.pi)⟩

/-- `SphericalDirectionAstroExt::to_frame_with` (src/coordinates/transform/ext.rs:232-243). -/
noncomputable def sphTo (c : Ctx) (jd : ℝ) (a b : Verif.Earth.Frame) (d : Angles) : Angles := angles ((rot c jd a b).mulVec (vector d))

/-- `transform_spherical_dir_from!` (77-111). -/
noncomputable def sphTurn (c : Ctx) (jd : ℝ) (a b : Verif.Earth.Frame) (d : Angles) : Angles :=
  let icrs := sphTo c jd a .icrs d
  if b = .icrs then icrs else sphTo c jd .icrs b icrs

/-- `SiderustSphericalDir` (types.rs). -/
structure CDir where
  polar : ℝ
  azimuth : ℝ
  frame : CFrame

/-- `siderust_spherical_dir_transform_frame` (236-271). -/
noncomputable def sphDir (w : World) (outNull : Bool) (d : Angles) (src dst : CFrame) (jd : Option ℝ) : Except Status CDir :=
  if outNull then .error .nullPointer
  else checked dirFrame src dst jd fun a b t => let r := sphTurn w.plain t a b d; ⟨r.polar, r.azimuth, dst⟩

/-- `siderust_spherical_dir_transform_frame_with_context` (275-314). -/
noncomputable def sphDirWith (w : World) (outNull : Bool) (c : Option Context) (d : Angles) (src dst : CFrame) (jd : Option ℝ) : Except Status CDir :=
  if outNull then .error .nullPointer
  else (requireModel c).bind fun m => checked dirFrame src dst jd fun a b t => let r := sphTurn (w.ctx m) t a b d; ⟨r.polar, r.azimuth, dst⟩

/-- An observer: longitude and latitude in degrees. -/
structure Site where
  lon : ℝ
  lat : ℝ

/-- `ToHorizontal::to_horizontal` (src/coordinates/transform/horizontal.rs:90-133): the sidereal time always with the
nutation of `Iau2006A` (107-108). -/
noncomputable def World.horizon (w : World) (ut1 tt : ℝ) (s : Site) (v : V3) : V3 :=
  let n := w.nut .iau2006A tt
  Verif.Horizon.toHorizontal (Verif.Earth.gast ut1 tt n.dpsi n.meanObliquity) (s.lat * (Real.pi / 180)) (s.lon * (Real.pi / 180)) v

/-- `spherical_dir_to_horizontal_precise_from!` (156-165) and `…_from_model!` (167-178): ICRS, true equator of date, horizon. -/
noncomputable def toHorizon (w : World) (c : Ctx) (ut1 tt : ℝ) (s : Site) (a : Verif.Earth.Frame) (d : Angles) : Angles :=
  let icrs := sphTo c tt a .icrs d
  let tod := sphTo c tt .icrs .trueOfDate icrs
  angles (w.horizon ut1 tt s (vector tod))

/-- The output of the horizontal functions: `sph_to_pair` returns polar angle and azimuth, bound as `(az, alt)` and
stored as `polar_deg: alt, azimuth_deg: az` (e.g. 380-399). -/
def stored (r : Angles) : CDir := let (az, alt) := (r.polar, r.azimuth); ⟨alt, az, .horizontal⟩

/-- `siderust_spherical_dir_to_horizontal_precise` (361-401); the dates are read in order. -/
noncomputable def horizontalPrecise (w : World) (outNull : Bool) (d : Angles) (src : CFrame) (tt ut1 : Option ℝ) (s : Site) : Except Status CDir :=
  if outNull then .error .nullPointer
  else match dirFrame src with
    | none => .error .invalidFrame
    | some a => match tt, ut1 with
      | some tt, some ut1 => .ok (stored (toHorizon w w.plain ut1 tt s a d))
      | _, _ => .error .invalidArgument

/-- `siderust_spherical_dir_to_horizontal_precise_with_context` (406-452). -/
noncomputable def horizontalPreciseWith (w : World) (outNull : Bool) (c : Option Context) (d : Angles) (src : CFrame) (tt ut1 : Option ℝ) (s : Site) :
    Except Status CDir :=
  if outNull then .error .nullPointer
  else (requireModel c).bind fun m => match dirFrame src with
    | none => .error .invalidFrame
    | some a => match tt, ut1 with
      | some tt, some ut1 => .ok (stored (toHorizon w (w.ctx m) ut1 tt s a d))
      | _, _ => .error .invalidArgument

end Verif.CFrames
