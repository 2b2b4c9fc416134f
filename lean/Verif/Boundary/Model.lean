import Verif.Ffi.Model
import Verif.Sky.Model
import Verif.Provider.Model

/-
Model of the numbers the C interface writes: the instantaneous functions and the event records of
`/repo/siderust-ffi/src/subject.rs`, `altitude.rs`, `azimuth.rs`, `types.rs`, and the Moon phase
functions of `/repo/siderust-ffi/src/phase.rs`.

The call discipline (panics, null pointers, arrays) is that of `Verif.Ffi`. Numbers written are real
numbers; a typed quantity is the number in its own unit, which is what `.value()` returns.
-/
namespace Verif.Boundary
open Verif.Ffi (Status Mem Addr F64 Alloc Subject scalarCall windowFromC mjdFrom vecToC guard)
open Verif.Sky (Label fromElongation toDeg)

/-- `siderust_altitude_at` (subject.rs:36-58): `altitude` is `AltitudeProvider::altitude_at`, in
radians; its value is written. -/
noncomputable def altitudeAt {β σ δ : Type} (subject : Subject β σ δ) (mjd : F64)
    (altitude : Verif.Ffi.Provider β σ δ → Rat → Option ℝ) (out : Addr) (m : Mem ℝ) : Status × Mem ℝ :=
  scalarCall subject mjd altitude out m

/-- `siderust_azimuth_at` (subject.rs:236-259): `azimuth` is `AzimuthProvider::azimuth_at`, in
radians (azimuth/provider.rs:82); its value is written. -/
noncomputable def azimuthAt {β σ δ : Type} (subject : Subject β σ δ) (mjd : F64)
    (azimuth : Verif.Ffi.Provider β σ δ → Rat → Option ℝ) (out : Addr) (m : Mem ℝ) : Status × Mem ℝ :=
  scalarCall subject mjd azimuth out m

/-- `SiderustCulminationEvent` (types.rs:782-792). -/
structure CulminationRecord where
  mjd : ℝ
  altitudeDeg : ℝ
  kind : Int

/-- types.rs:796-806 with the codes of 146-151. -/
noncomputable def culminationRecord (c : Provider.Culmination) : CulminationRecord where
  mjd := c.mjd
  altitudeDeg := c.altitude
  kind := match c.kind with
    | .maximum => 0
    | .minimum => 1

/-- `SiderustAzimuthExtremum` (types.rs:958-972). -/
structure ExtremumRecord where
  mjd : ℝ
  azimuthDeg : ℝ
  kind : Int

/-- types.rs:1080-1092 with the codes of 941-946. -/
noncomputable def extremumRecord (x : Provider.AzimuthExtremum) : ExtremumRecord where
  mjd := x.mjd
  azimuthDeg := x.azimuth
  kind := match x.kind with
    | .maximum => 0
    | .minimum => 1

/-- `SiderustMoonPhaseGeometry` (types.rs:1014-1028). -/
structure PhaseRecord where
  phaseAngleRad : ℝ
  illuminatedFraction : ℝ
  elongationRad : ℝ
  waxing : Nat

/-- `phase_geometry_from_rust` (phase.rs:25-35). -/
def phaseRecord (g : Sky.Geometry) : PhaseRecord where
  phaseAngleRad := g.phase
  illuminatedFraction := g.fraction
  elongationRad := g.elongation
  waxing := if g.waxing then 1 else 0

/-- `siderust_moon_phase_geocentric`, `siderust_moon_phase_topocentric` (phase.rs:77-111): `geometry`
is `none` when it panics. -/
def phaseCall (jd : F64) (geometry : Rat → Option Sky.Geometry) (out : Addr) (m : Mem PhaseRecord) :
    Status × Mem PhaseRecord :=
  guard <|
    if out = 0 then .ret .nullPointer m
    else match mjdFrom jd with
      | .error e => .ret e m
      | .ok t => match geometry t with
        | none => .panic m
        | some g => .ret .ok (m.store out (.record (phaseRecord g)))

/-- The codes of `SiderustMoonPhaseLabel` (types.rs:995-1012) under the match of phase.rs:125-134. -/
def labelCode : Label → Int
  | .newMoon => 0
  | .waxingCrescent => 1
  | .firstQuarter => 2
  | .waxingGibbous => 3
  | .fullMoon => 4
  | .waningGibbous => 5
  | .lastQuarter => 6
  | .waningCrescent => 7

/-- `siderust_moon_phase_label` (phase.rs:115-140): the default half width is 22.5 degrees
(lunar/phase.rs:106-112). `none`: the loops have not ended. -/
noncomputable def labelCall (sub add : ℝ → ℝ → ℝ) (fuel : Nat) (g : PhaseRecord) (out : Addr)
    (m : Mem Int) : Option (Status × Mem Int) :=
  if out = 0 then some (.nullPointer, m)
  else (fromElongation sub add fuel (toDeg g.elongationRad) (45 / 2)).map fun l =>
    (.ok, m.store out (.record (labelCode l)))

/-- `MoonPhaseGeometry::label` (lunar/phase.rs:334-341). -/
noncomputable def label (sub add : ℝ → ℝ → ℝ) (fuel : Nat) (g : Sky.Geometry) : Option Label :=
  fromElongation sub add fuel (toDeg g.elongation) (45 / 2)

/-- `siderust_find_phase_events` and the three illumination functions (phase.rs:150-262): the window
is checked, the options are copied as they are (46-51). -/
def phaseSearch {ρ α : Type} (A : Alloc) (start stop tol : F64)
    (search : Rat × Rat → F64 → Option (List ρ)) (conv : ρ → α) (out count : Addr) (m : Mem α) :
    Status × Mem α :=
  guard <|
    match windowFromC start stop with
    | .error e => .ret e m
    | .ok w => match search w tol with
      | none => .panic m
      | some items =>
          let (s, m') := vecToC A items conv out count m
          .ret s m'

end Verif.Boundary
