import Mathlib.Analysis.InnerProductSpace.PiL2
import Mathlib.Analysis.SpecialFunctions.Trigonometric.Inverse
import Mathlib.Analysis.SpecialFunctions.Complex.Arg
import Mathlib.Analysis.SpecialFunctions.Pow.Real
import Mathlib.Analysis.SpecialFunctions.Log.Basic

/-!
# Force models

Model of `src/astro/dynamics/forces/{third_body,drag,srp,relativity,empirical,geopotential}.rs`,
`src/astro/dynamics/{density,state}.rs`, `src/astro/dynamics/gravity/egm_low_degree.rs` and the step rule of
`src/astro/dynamics/propagation/propagator.rs`.

Real arithmetic; kilometres and seconds as in the code.  `NaN` is not represented, except for `try_new` and the
step rule, whose finiteness tests are modelled with `none` for a value that is not finite.  An ephemeris is the three
functions that the force models call; the equator–ecliptic rotation (src/astro/precession.rs), the spherical
harmonics kernel and the RK4 step (crate `principia`) and the tables (archive crate) are parameters.
-/

namespace Verif.Forces

open Classical

abbrev Vec3 := EuclideanSpace ℝ (Fin 3)

/-- `DynamicsError` and `PrincipiaError`, as far as these functions produce them
(src/astro/dynamics/errors.rs). -/
inductive Err
  | ephemerisUnavailable (body : String)
  | atmosphere
  | gravityFieldUnavailable
  | altitudeBelowSurface (h : ℝ)
  | degenerate
  | invalidStep
  | kernel (code : Nat)

/-- The part of `DynEphemeris` used by the force models: barycentric Sun and Earth in au, geocentric Moon in km, ecliptic
axes; `none` is the error of the `try_` functions. -/
structure Ephemeris where
  sun : ℝ → Option Vec3
  earth : ℝ → Option Vec3
  moon : ℝ → Option Vec3

/-- `DynamicsContext` (src/astro/dynamics/context.rs:187-205); the gravity field with its constants enters only as an
argument of the kernel. -/
structure Context (Γ : Type) where
  ephemeris : Option Ephemeris := none
  atmosphere : Option (ℝ → Except Err ℝ) := none
  gravity : Option Γ := none

/-- `DynamicsContext::require_ephemeris` (context.rs:232-239). -/
def requireEphemeris {Γ : Type} (c : Context Γ) : Except Err Ephemeris :=
  match c.ephemeris with
  | some e => .ok e
  | none => .error (.ephemerisUnavailable "(any)")

/-- `DynamicsContext::require_atmosphere` (context.rs:247-256). -/
def requireAtmosphere {Γ : Type} (c : Context Γ) : Except Err (ℝ → Except Err ℝ) :=
  match c.atmosphere with
  | some a => .ok a
  | none => .error .atmosphere

/-- `DynamicsContext::require_gravity_field` (context.rs:260-266). -/
def requireGravity {Γ : Type} (c : Context Γ) : Except Err Γ :=
  match c.gravity with
  | some g => .ok g
  | none => .error .gravityFieldUnavailable

/-! ## Third bodies -/

/-- `battin_third_body_accel` (third_body.rs:23-44). -/
noncomputable def battin (rs rb : Vec3) (mu : ℝ) : Vec3 :=
  let rbSq := rb 0 * rb 0 + rb 1 * rb 1 + rb 2 * rb 2
  let rbNorm := Real.sqrt rbSq
  if rbNorm = 0 then 0
  else
    let q := (rs 0 * (rs 0 - 2 * rb 0) + rs 1 * (rs 1 - 2 * rb 1) + rs 2 * (rs 2 - 2 * rb 2)) / rbSq
    let fq := q * (3 + q * (3 + q)) / (1 + (1 + q) ^ (1.5 : ℝ))
    let denom := rbNorm * rbSq * (1 + fq)
    if denom = 0 then 0
    else
      let scale := -mu / denom
      !₂[scale * (rb 0 * fq + rs 0), scale * (rb 1 * fq + rs 1), scale * (rb 2 * fq + rs 2)]

/-- `AU_IN_KM` (forces/mod.rs:36). -/
noncomputable def auKm : ℝ := 149597870.7

/-- `sun_geocentric` (third_body.rs:46-65); `rot` is the rotation from the ecliptic to the equator of J2000. -/
noncomputable def sunGeocentric (rot : Vec3 →ₗ[ℝ] Vec3) (eph : Ephemeris) (jd : ℝ) : Except Err Vec3 :=
  match eph.sun jd with
  | none => .error (.ephemerisUnavailable "Sun")
  | some s =>
    match eph.earth jd with
    | none => .error (.ephemerisUnavailable "Earth")
    | some e => .ok (auKm • rot (s - e))

/-- `moon_geocentric` (third_body.rs:67-84). -/
def moonGeocentric (rot : Vec3 →ₗ[ℝ] Vec3) (eph : Ephemeris) (jd : ℝ) : Except Err Vec3 :=
  match eph.moon jd with
  | none => .error (.ephemerisUnavailable "Moon")
  | some m => .ok (rot m)

/-- `ThirdBodyProvider` (third_body.rs:88-99). -/
structure Body where
  gm : ℝ
  position : Ephemeris → ℝ → Except Err Vec3

/-- `SunPerturbation`, `MoonPerturbation` (third_body.rs:101-137). -/
noncomputable def sunBody (rot : Vec3 →ₗ[ℝ] Vec3) (gm : ℝ) : Body := ⟨gm, sunGeocentric rot⟩
noncomputable def moonBody (rot : Vec3 →ₗ[ℝ] Vec3) (gm : ℝ) : Body := ⟨gm, moonGeocentric rot⟩

/-- The loop of `ThirdBody::acceleration` (third_body.rs:199-212). -/
noncomputable def thirdBodyLoop (eph : Ephemeris) (jd : ℝ) (rs : Vec3) : List Body → Vec3 → Except Err Vec3
  | [], total => .ok total
  | b :: bs, total =>
    match b.position eph jd with
    | .error e => .error e
    | .ok rb => thirdBodyLoop eph jd rs bs (total + battin rs rb b.gm)

/-- `ThirdBody::acceleration` (third_body.rs:182-214). -/
noncomputable def thirdBody {Γ : Type} (bodies : List Body) (rs : Vec3) (jd : ℝ) (ctx : Context Γ) : Except Err Vec3 :=
  match bodies with
  | [] => .ok 0
  | _ =>
    match requireEphemeris ctx with
    | .error e => .error e
    | .ok eph => thirdBodyLoop eph jd rs bodies 0

/-! ## Atmosphere -/

/-- `ExponentialAtmosphere::density` (density.rs:150-159). -/
noncomputable def exponentialDensity (rho0 h0 scale : ℝ) (h : ℝ) : Except Err ℝ :=
  if h < 0 then .error (.altitudeBelowSurface h)
  else
    let exponent := -(h - h0) / scale
    .ok (rho0 * Real.exp exponent)

/-- `ConstantDensity::density` (density.rs:182-184). -/
def constantDensity (rho : ℝ) (_h : ℝ) : Except Err ℝ := .ok rho

/-- The log-linear formula inside a bracket (density.rs:247-248, 254-255). -/
noncomputable def bracket (a b : ℝ × ℝ) (h : ℝ) : ℝ :=
  let frac := (h - a.1) / (b.1 - a.1)
  Real.exp (Real.log a.2 + frac * (Real.log b.2 - Real.log a.2))

/-- The search for the bracket (density.rs:250-257). -/
noncomputable def findBracket (h : ℝ) : List (ℝ × ℝ) → Option ℝ
  | a :: b :: rest => if a.1 ≤ h ∧ h ≤ b.1 then some (bracket a b h) else findBracket h (b :: rest)
  | _ => none

/-- `nrlmsise_interpolate` (density.rs:237-259) for a table of at least two rows; the table is in the archive crate. -/
noncomputable def nrlmsise (table : List (ℝ × ℝ)) (h : ℝ) : ℝ :=
  let first := table.getD 0 (0, 0)
  let n := table.length
  let last := table.getD (n - 1) (0, 0)
  if h ≤ first.1 then first.2
  else if last.1 ≤ h then bracket (table.getD (n - 2) (0, 0)) last h
  else (findBracket h table).getD last.2

/-- `Nrlmsise00LiteApprox::density` (density.rs:223-229). -/
noncomputable def nrlmsiseDensity (table : List (ℝ × ℝ)) (h : ℝ) : Except Err ℝ :=
  if h < 0 then .error (.altitudeBelowSurface h) else .ok (nrlmsise table h)

/-- `f64::atan2`. -/
noncomputable def atan2 (y x : ℝ) : ℝ := Complex.arg ⟨x, y⟩

/-- The latitude from a parametric latitude (density.rs:310-312, 317-319). -/
noncomputable def bowringPhi (a f p z beta : ℝ) : ℝ :=
  let b := a * (1 - f)
  let e2 := 2 * f - f * f
  let ep2 := (a * a - b * b) / (b * b)
  let sb3 := Real.sin beta ^ 3
  let cb3 := Real.cos beta ^ 3
  atan2 (z + ep2 * b * sb3) (p - e2 * a * cb3)

/-- One Bowring iteration (density.rs:310-313). -/
noncomputable def bowringStep (a f p z beta : ℝ) : ℝ :=
  let phi := bowringPhi a f p z beta
  atan2 ((1 - f) * Real.sin phi) (Real.cos phi)

/-- The altitude from the latitude (density.rs:321-330). -/
noncomputable def altitudeAt (a f p z phi : ℝ) : ℝ :=
  let e2 := 2 * f - f * f
  let sinPhi := Real.sin phi
  let cosPhi := Real.cos phi
  let nRoc := a / Real.sqrt (1 - e2 * sinPhi * sinPhi)
  if 1e-10 < |cosPhi| then p / cosPhi - nRoc
  else |z| / |sinPhi| - nRoc * (1 - e2)

/-- `geodetic_altitude` (density.rs:288-333). -/
noncomputable def geodeticAltitude (r : Vec3) (a f : ℝ) : ℝ :=
  let b := a * (1 - f)
  let p := Real.sqrt (r 0 * r 0 + r 1 * r 1)
  let z := r 2
  let beta0 := atan2 (z * a) (p * b)
  let beta := (bowringStep a f p z)^[3] beta0
  altitudeAt a f p z (bowringPhi a f p z beta)

/-! ## Drag -/

/-- `WGS84_A_KM`, `WGS84_F` (drag.rs:22-23). -/
noncomputable def wgsA : ℝ := 6378.137
noncomputable def wgsF : ℝ := 1 / 298.257223563

/-- `DragForce` (drag.rs:37-44). -/
structure Drag where
  cd : ℝ
  areaToMass : ℝ
  omega : Vec3

/-- `DragForce::with_omega` (drag.rs:53-63). -/
noncomputable def Drag.withOmega (cd am oz : ℝ) : Drag := ⟨cd, am, !₂[0, 0, oz]⟩

/-- `DragForce::acceleration` (drag.rs:71-106). -/
noncomputable def Drag.acceleration {Γ : Type} (d : Drag) (r v : Vec3) (ctx : Context Γ) : Except Err Vec3 :=
  match requireAtmosphere ctx with
  | .error e => .error e
  | .ok provider =>
    let h := geodeticAltitude r wgsA wgsF
    if h < 0 then .error (.altitudeBelowSurface h)
    else
      match provider h with
      | .error e => .error e
      | .ok rho =>
        let oz := d.omega 2
        let crossX := -oz * r 1
        let crossY := oz * r 0
        let vx := v 0 - crossX
        let vy := v 1 - crossY
        let vz := v 2
        let vMag := Real.sqrt (vx * vx + vy * vy + vz * vz) * 1000;
        let pre := (-0.5) * d.cd * d.areaToMass * rho * vMag
        .ok !₂[pre * vx, pre * vy, pre * vz]

/-! ## Solar radiation pressure -/

/-- `f64::clamp`. -/
noncomputable def clamp (x lo hi : ℝ) : ℝ := if x < lo then lo else if hi < x then hi else x

/-- `cylindrical_shadow_factor` (srp.rs:116-138). -/
noncomputable def cylindrical (sat sun : Vec3) (re : ℝ) : ℝ :=
  let mag := Real.sqrt (sun 0 * sun 0 + sun 1 * sun 1 + sun 2 * sun 2)
  if mag = 0 then 1
  else
    let h0 := sun 0 / mag
    let h1 := sun 1 / mag
    let h2 := sun 2 / mag
    let proj := sat 0 * h0 + sat 1 * h1 + sat 2 * h2
    if 0 ≤ proj then 1
    else
      let perp := (sat 0 - proj * h0) ^ 2 + (sat 1 - proj * h1) ^ 2 + (sat 2 - proj * h2) ^ 2
      if perp < re * re then 0 else 1

/-- The penumbra part of `conical_shadow_factor` from the angular radii and the separation (srp.rs:168-188). -/
noncomputable def lit (rs re th : ℝ) : ℝ :=
  if rs + re ≤ th then 1
  else if rs ≤ re ∧ th ≤ re - rs then 0
  else if re < rs ∧ th ≤ rs - re then 1 - (re / rs) ^ 2
  else
    let x := (th * th + rs * rs - re * re) / (2 * th)
    let y := (th * th + re * re - rs * rs) / (2 * th)
    let alpha := Real.arccos (clamp (x / rs) (-1) 1)
    let beta := Real.arccos (clamp (y / re) (-1) 1)
    let semi := (rs + re + th) * (rs + re - th) * (th + rs - re) * (th - rs + re)
    let triangle := Real.sqrt (max semi 0) / 2
    let overlap := rs * rs * alpha + re * re * beta - triangle
    let area := Real.pi * rs * rs
    clamp (1 - overlap / area) 0 1

/-- `conical_shadow_factor` (srp.rs:140-189). -/
noncomputable def conical (sat sun : Vec3) (earth sunR : ℝ) : ℝ :=
  let dEarth := Real.sqrt (sat 0 * sat 0 + sat 1 * sat 1 + sat 2 * sat 2)
  if dEarth = 0 then 1
  else
    let t0 := sun 0 - sat 0
    let t1 := sun 1 - sat 1
    let t2 := sun 2 - sat 2
    let dSun := Real.sqrt (t0 * t0 + t1 * t1 + t2 * t2)
    if dSun = 0 then 1
    else
      let rhoE := Real.arcsin (min (earth / dEarth) 1)
      let rhoS := Real.arcsin (min (sunR / dSun) 1)
      let cosTheta := (-sat 0 * t0 - sat 1 * t1 - sat 2 * t2) / (dEarth * dSun)
      lit rhoS rhoE (Real.arccos (clamp cosTheta (-1) 1))

/-- `R_EARTH` (forces/mod.rs:26), `R_SUN_KM` (srp.rs:22), `P0` (forces/mod.rs:32). -/
noncomputable def earthKm : ℝ := 6378.137
noncomputable def sunKm : ℝ := 695700
noncomputable def pressure : ℝ := 4.56e-6

/-- The three `EclipseModel`s (srp.rs:66-93). -/
inductive Eclipse
  | none
  | cylindrical
  | conical

noncomputable def Eclipse.factor : Eclipse → Vec3 → Vec3 → ℝ
  | .none, _, _ => 1
  | .cylindrical, sat, sun => Verif.Forces.cylindrical sat sun earthKm
  | .conical, sat, sun => Verif.Forces.conical sat sun earthKm sunKm

/-- `CannonballSrp::acceleration` (srp.rs:198-231). -/
noncomputable def srp {Γ : Type} (model : Eclipse) (cr am : ℝ) (rot : Vec3 →ₗ[ℝ] Vec3) (sat : Vec3) (jd : ℝ)
    (ctx : Context Γ) : Except Err Vec3 :=
  match requireEphemeris ctx with
  | .error e => .error e
  | .ok eph =>
    match sunGeocentric rot eph jd with
    | .error e => .error e
    | .ok sun =>
      let d : Vec3 := !₂[sat 0 - sun 0, sat 1 - sun 1, sat 2 - sun 2]
      let r := ‖d‖
      if r = 0 then .ok 0
      else
        let nu := model.factor sat sun
        let mag := nu * cr * pressure * (auKm * auKm / (r * r)) * am / 1000
        let inv := 1 / r
        .ok !₂[mag * d 0 * inv, mag * d 1 * inv, mag * d 2 * inv]

/-! ## Relativity, empirical accelerations, geopotential -/

/-- `CentralBodyRelativity1Pn::acceleration` (relativity.rs:44-75), `DEGENERATE_RADIUS_KM` (forces/mod.rs:30). -/
noncomputable def relativity (gm c : ℝ) (r v : Vec3) : Except Err Vec3 :=
  let r2 := r 0 * r 0 + r 1 * r 1 + r 2 * r 2
  let rn := Real.sqrt r2
  if rn < 100 then .error .degenerate
  else
    let r3 := r2 * rn
    let v2 := v 0 * v 0 + v 1 * v 1 + v 2 * v 2
    let rdotv := r 0 * v 0 + r 1 * v 1 + r 2 * v 2
    let pre := gm / (c ^ 2 * r3)
    let coeffR := 4 * gm / rn - v2
    let coeffV := 4 * rdotv
    .ok !₂[pre * (coeffR * r 0 + coeffV * v 0), pre * (coeffR * r 1 + coeffV * v 1), pre * (coeffR * r 2 + coeffV * v 2)]

/-- `EmpiricalAcceleration::acceleration` (empirical.rs:46-87). -/
noncomputable def empirical (radial transverse normal : ℝ) (r v : Vec3) : Except Err Vec3 :=
  let rn := Real.sqrt (r 0 * r 0 + r 1 * r 1 + r 2 * r 2)
  if rn = 0 then .error .degenerate
  else
    let n0 := r 1 * v 2 - r 2 * v 1
    let n1 := r 2 * v 0 - r 0 * v 2
    let n2 := r 0 * v 1 - r 1 * v 0
    let nn := Real.sqrt (n0 * n0 + n1 * n1 + n2 * n2)
    if nn = 0 then .error .degenerate
    else
      let rh : Vec3 := !₂[r 0 / rn, r 1 / rn, r 2 / rn]
      let nh : Vec3 := !₂[n0 / nn, n1 / nn, n2 / nn]
      let th : Vec3 := !₂[nh 1 * rh 2 - nh 2 * rh 1, nh 2 * rh 0 - nh 0 * rh 2, nh 0 * rh 1 - nh 1 * rh 0]
      .ok !₂[rh 0 * radial + th 0 * transverse + nh 0 * normal, rh 1 * radial + th 1 * transverse + nh 1 * normal,
        rh 2 * radial + th 2 * transverse + nh 2 * normal]

/-- `Geopotential::acceleration` (geopotential.rs:55-101); `era` is `earth_rotation_angle` of the epoch's TT Julian date and
`kernel` the spherical-harmonic routine of `principia` for the field. -/
noncomputable def geopotential {Γ : Type} (kernel : Γ → ℕ → ℕ → Vec3 → Except Err Vec3) (era : ℝ → ℝ) (degree order : ℕ)
    (r : Vec3) (jd : ℝ) (ctx : Context Γ) : Except Err Vec3 :=
  match requireGravity ctx with
  | .error e => .error e
  | .ok g =>
    if 0 < order then
      let s := Real.sin (era jd)
      let c := Real.cos (era jd)
      match kernel g degree order !₂[c * r 0 + s * r 1, -s * r 0 + c * r 1, r 2] with
      | .error e => .error e
      | .ok a => .ok !₂[c * a 0 - s * a 1, s * a 0 + c * a 1, a 2]
    else
      match kernel g degree order !₂[r 0, r 1, r 2] with
      | .error e => .error e
      | .ok a => .ok a

/-- `LowDegreeEarth::lookup` (egm_low_degree.rs:53-63). -/
def lookup (table : List (ℕ × ℕ × ℝ × ℝ)) (n m : ℕ) : ℝ × ℝ :=
  if n = 0 ∧ m = 0 then (1, 0)
  else
    match table.find? (fun e => e.1 == n && e.2.1 == m) with
    | some e => (e.2.2.1, e.2.2.2)
    | none => (0, 0)

/-- `LowDegreeEarth::{c_normalized, s_normalized}` (egm_low_degree.rs:83-97). -/
def cNormalized (table : List (ℕ × ℕ × ℝ × ℝ)) (n m : ℕ) : ℝ := if 4 < n ∨ n < m then 0 else (lookup table n m).1
def sNormalized (table : List (ℕ × ℕ × ℝ × ℝ)) (n m : ℕ) : ℝ := if 4 < n ∨ n < m then 0 else (lookup table n m).2

/-- `TwoBodyEarth::c_normalized` (egm_low_degree.rs:39-41). -/
def twoBodyC (n _m : ℕ) : ℝ := if n = 0 then 1 else 0

/-! ## Spacecraft properties and the step rule -/

/-- `SpacecraftProperties` (state.rs:40-55). -/
structure Spacecraft where
  mass : ℝ
  dragArea : ℝ
  cd : ℝ
  srpArea : ℝ
  cr : ℝ
  amDrag : ℝ
  amSrp : ℝ

/-- `SpacecraftProperties::try_new` (state.rs:112-150): `none` in an argument is a value that is not finite, the result is
the offending field. -/
noncomputable def tryNew (mass dragArea cd srpArea cr : Option ℝ) : Except String Spacecraft :=
  match mass with
  | none => .error "mass"
  | some m =>
    if m ≤ 0 then .error "mass"
    else
      match dragArea with
      | none => .error "drag_area"
      | some da =>
        if da < 0 then .error "drag_area"
        else
          match srpArea with
          | none => .error "srp_area"
          | some sa =>
            if sa < 0 then .error "srp_area"
            else
              match cd with
              | none => .error "cd"
              | some cdv =>
                if cdv < 0 then .error "cd"
                else
                  match cr with
                  | none => .error "cr"
                  | some crv =>
                    if crv < 0 then .error "cr"
                    else .ok ⟨m, da, cdv, sa, crv, da / m, sa / m⟩

/-- `f64::signum` away from zero. -/
noncomputable def signum (x : ℝ) : ℝ := if 0 ≤ x then 1 else -1

/-- `FixedRk4Adapter::step` (propagator.rs:72-97): `none` is a value that is not finite, `rk4` the step of `principia`; the
result is the new state, the step made and the proposal for the next one. -/
noncomputable def rk4Adapter {S : Type} (rk4 : S → ℝ → Except Err S) (step : Option ℝ) (s : S) (hTry : Option ℝ) :
    Except Err (S × ℝ × ℝ) :=
  match hTry with
  | none => .error .invalidStep
  | some ht =>
    match step with
    | none => .error .invalidStep
    | some st =>
      let maxH := |st|
      if maxH = 0 then .error .invalidStep
      else
        let h := if |ht| < maxH then ht else signum ht * maxH
        match rk4 s h with
        | .error e => .error e
        | .ok s' => .ok (s', h, h)

end Verif.Forces
