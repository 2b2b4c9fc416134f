import Mathlib.Analysis.SpecialFunctions.Trigonometric.Basic
import Mathlib.Analysis.SpecialFunctions.Complex.Arg
import Mathlib.LinearAlgebra.Matrix.Notation
import Mathlib.Algebra.Order.Round

/-!
# Earth orientation

Model of `src/astro/{era,sidereal,polar_motion,cio,precession,nutation/mod,
earth_rotation_provider}.rs` and of the frame rotations of
`src/coordinates/transform/providers/{mod,frames_inertial,frames_earth,frames_teme,
frames_catalog}.rs`.

Real arithmetic.  A Julian Date is a real number; `affn::Rotation3` is a real 3×3 matrix, with
the elementary rotations in the counter-clockwise (active) convention that
`src/astro/precession.rs:152-158` calls the standard, siderust convention, and `inverse` and
`transpose` both the transposed matrix.  The nutation model, the Earth orientation tables and the
time-scale conversions of `tempoch` are parameters.
-/

namespace Verif.Earth

abbrev M3 := Matrix (Fin 3) (Fin 3) ℝ
abbrev V3 := Fin 3 → ℝ

/-! ## Elementary rotations (`affn::Rotation3::{rx, ry, rz}`, external) -/

noncomputable def rx (θ : ℝ) : M3 :=
  !![1, 0, 0; 0, Real.cos θ, -Real.sin θ; 0, Real.sin θ, Real.cos θ]
noncomputable def ry (θ : ℝ) : M3 :=
  !![Real.cos θ, 0, Real.sin θ; 0, 1, 0; -Real.sin θ, 0, Real.cos θ]
noncomputable def rz (θ : ℝ) : M3 :=
  !![Real.cos θ, -Real.sin θ, 0; Real.sin θ, Real.cos θ, 0; 0, 0, 1]

/-- `f64::atan2`: the argument of `x + iy`, with `atan2 0 0 = 0`. -/
noncomputable def atan2 (y x : ℝ) : ℝ := Complex.arg ⟨x, y⟩

/-- Truncation towards zero (`f64::trunc`). -/
noncomputable def trunc (x : ℝ) : ℤ := if 0 ≤ x then ⌊x⌋ else ⌈x⌉

/-- The `%` operator of Rust on floats and `fmod_c` (src/astro/era.rs:56-58). -/
noncomputable def fmod (x y : ℝ) : ℝ := x - trunc (x / y) * y

/-- `f64::rem_euclid` for a positive divisor, and `qtty`'s `wrap_pos` (divisor 2π). -/
noncomputable def remEuclid (x y : ℝ) : ℝ := x - ⌊x / y⌋ * y

noncomputable def tau : ℝ := 2 * Real.pi

/-- `a.to_radians() / 3600.0` (src/astro/precession.rs:98, 131) and `Arcseconds::to::<Radian>`. -/
noncomputable def arcsec (a : ℝ) : ℝ := a * (Real.pi / 180) / 3600

/-- Julian centuries from J2000 (src/astro/sidereal.rs:84, precession.rs:70, cio.rs:97). -/
noncomputable def centuries (jd : ℝ) : ℝ := (jd - 2451545) / 36525

/-! ## Earth rotation angle and sidereal time -/

/-- `earth_rotation_angle_parts` (src/astro/era.rs:81-87). -/
noncomputable def earthRotationAngleParts (d1 d2 : ℝ) : ℝ :=
  let p := if d1 < d2 then (d1, d2) else (d2, d1)
  let t := p.1 + (p.2 - 2451545)
  let f := fmod p.1 1 + fmod p.2 1
  let turns := remEuclid (f + 0.7790572732640 + 0.00273781191135448 * t) 1
  turns * tau

/-- `earth_rotation_angle` (src/astro/era.rs:75-77). -/
noncomputable def earthRotationAngle (jdUt1 : ℝ) : ℝ :=
  earthRotationAngleParts 2451545 (jdUt1 - 2451545)

/-- `gmst_iau2006` (src/astro/sidereal.rs:82-95). -/
noncomputable def gmst (jdUt1 jdTt : ℝ) : ℝ :=
  let era := earthRotationAngle jdUt1
  let t := centuries jdTt
  let poly := 0.014506 + 4612.156534 * t + 1.3915817 * t ^ 2 - 0.00000044 * t ^ 3
    - 0.000029956 * t ^ 4 - 0.0000000368 * t ^ 5
  remEuclid (era + arcsec poly) tau

/-- `ComplementaryTerm` (src/astro/era.rs:129-134); coefficients in arcseconds. -/
structure Term where
  nfa : List ℤ
  sin : ℚ
  cos : ℚ

/-- `EECT00_T0` (src/astro/era.rs:138-304). -/
def eect0 : List Term := [
  ⟨[0, 0, 0, 0, 1, 0, 0, 0], (264096 / 100000000), (-39 / 100000000)⟩,
  ⟨[0, 0, 0, 0, 2, 0, 0, 0], (6352 / 100000000), (-2 / 100000000)⟩,
  ⟨[0, 0, 2, -2, 3, 0, 0, 0], (1175 / 100000000), (1 / 100000000)⟩,
  ⟨[0, 0, 2, -2, 1, 0, 0, 0], (1121 / 100000000), (1 / 100000000)⟩,
  ⟨[0, 0, 2, -2, 2, 0, 0, 0], (-455 / 100000000), 0⟩,
  ⟨[0, 0, 2, 0, 3, 0, 0, 0], (202 / 100000000), 0⟩,
  ⟨[0, 0, 2, 0, 1, 0, 0, 0], (198 / 100000000), 0⟩,
  ⟨[0, 0, 0, 0, 3, 0, 0, 0], (-172 / 100000000), 0⟩,
  ⟨[0, 1, 0, 0, 1, 0, 0, 0], (-141 / 100000000), (-1 / 100000000)⟩,
  ⟨[0, 1, 0, 0, -1, 0, 0, 0], (-126 / 100000000), (-1 / 100000000)⟩,
  ⟨[1, 0, 0, 0, -1, 0, 0, 0], (-63 / 100000000), 0⟩,
  ⟨[1, 0, 0, 0, 1, 0, 0, 0], (-63 / 100000000), 0⟩,
  ⟨[0, 1, 2, -2, 3, 0, 0, 0], (46 / 100000000), 0⟩,
  ⟨[0, 1, 2, -2, 1, 0, 0, 0], (45 / 100000000), 0⟩,
  ⟨[0, 0, 4, -4, 4, 0, 0, 0], (36 / 100000000), 0⟩,
  ⟨[0, 0, 1, -1, 1, -8, 12, 0], (-24 / 100000000), (-12 / 100000000)⟩,
  ⟨[0, 0, 2, 0, 0, 0, 0, 0], (32 / 100000000), 0⟩,
  ⟨[0, 0, 2, 0, 2, 0, 0, 0], (28 / 100000000), 0⟩,
  ⟨[1, 0, 2, 0, 3, 0, 0, 0], (27 / 100000000), 0⟩,
  ⟨[1, 0, 2, 0, 1, 0, 0, 0], (26 / 100000000), 0⟩,
  ⟨[0, 0, 2, -2, 0, 0, 0, 0], (-21 / 100000000), 0⟩,
  ⟨[0, 1, -2, 2, -3, 0, 0, 0], (19 / 100000000), 0⟩,
  ⟨[0, 1, -2, 2, -1, 0, 0, 0], (18 / 100000000), 0⟩,
  ⟨[0, 0, 0, 0, 0, 8, -13, -1], (-10 / 100000000), (5 / 100000000)⟩,
  ⟨[0, 0, 0, 2, 0, 0, 0, 0], (15 / 100000000), 0⟩,
  ⟨[2, 0, -2, 0, -1, 0, 0, 0], (-14 / 100000000), 0⟩,
  ⟨[1, 0, 0, -2, 1, 0, 0, 0], (14 / 100000000), 0⟩,
  ⟨[0, 1, 2, -2, 2, 0, 0, 0], (-14 / 100000000), 0⟩,
  ⟨[1, 0, 0, -2, -1, 0, 0, 0], (14 / 100000000), 0⟩,
  ⟨[0, 0, 4, -2, 4, 0, 0, 0], (13 / 100000000), 0⟩,
  ⟨[0, 0, 2, -2, 4, 0, 0, 0], (-11 / 100000000), 0⟩,
  ⟨[1, 0, -2, 0, -3, 0, 0, 0], (11 / 100000000), 0⟩,
  ⟨[1, 0, -2, 0, -1, 0, 0, 0], (11 / 100000000), 0⟩]

/-- `EECT00_T1` (src/astro/era.rs:306-310). -/
def eect1 : List Term := [⟨[0, 0, 0, 0, 1, 0, 0, 0], -87 / 100000000, 0⟩]

/-- `arcsec_argument` (src/astro/era.rs:312-317). -/
noncomputable def arcsecArgument (poly : ℝ) : ℝ := fmod poly 1296000 * (Real.pi / (180 * 3600))

/-- The polynomials of `fal03`, `falp03`, `faf03`, `fad03`, `faom03`
(src/astro/era.rs:319-347), in arcseconds. -/
noncomputable def alPoly (t : ℝ) : ℝ :=
  485868.249036 + t * (1717915923.2178 + t * (31.8792 + t * (0.051635 - 0.00024470 * t)))
noncomputable def alpPoly (t : ℝ) : ℝ :=
  1287104.793048 + t * (129596581.0481 + t * (-0.5532 + t * (0.000136 - 0.00001149 * t)))
noncomputable def afPoly (t : ℝ) : ℝ :=
  335779.526232 + t * (1739527262.8478 + t * (-12.7512 + t * (-0.001037 + 0.00000417 * t)))
noncomputable def adPoly (t : ℝ) : ℝ :=
  1072260.703692 + t * (1602961601.2090 + t * (-6.3706 + t * (0.006593 - 0.00003169 * t)))
noncomputable def aomPoly (t : ℝ) : ℝ :=
  450160.398036 + t * (-6962890.5431 + t * (7.4722 + t * (0.007702 - 0.00005939 * t)))

/-- The eight arguments (src/astro/era.rs:349-359, 380-390). -/
noncomputable def arguments (t : ℝ) : List ℝ :=
  [arcsecArgument (alPoly t), arcsecArgument (alpPoly t), arcsecArgument (afPoly t),
   arcsecArgument (adPoly t), arcsecArgument (aomPoly t),
   fmod (3.176146697 + 1021.3285546211 * t) tau,
   fmod (1.753470314 + 628.3075849991 * t) tau,
   (0.024381750 + 0.00000538691 * t) * t]

/-- The angle of one term: the inner fold of `evaluate_complementary_terms`
(src/astro/era.rs:363-370). -/
noncomputable def termAngle (nfa : List ℤ) (args : List ℝ) : ℝ :=
  (nfa.zip args).foldl (fun angle p => angle + (p.1 : ℝ) * p.2) 0

/-- `evaluate_complementary_terms` (src/astro/era.rs:361-372). -/
noncomputable def evaluateTerms (terms : List Term) (args : List ℝ) : ℝ :=
  terms.reverse.foldl (fun sum term =>
    sum + (term.sin : ℝ) * Real.sin (termAngle term.nfa args)
      + (term.cos : ℝ) * Real.cos (termAngle term.nfa args)) 0

/-- `complementary_terms_iau2000` (src/astro/era.rs:379-395). -/
noncomputable def complementaryTerms (jdTt : ℝ) : ℝ :=
  let t := centuries jdTt
  let args := arguments t
  let a := evaluateTerms eect0 args + t * evaluateTerms eect1 args
  a * (Real.pi / (180 * 3600))

/-- `equation_of_the_equinoxes_iau2000` (src/astro/era.rs:401-407). -/
noncomputable def equationOfEquinoxes (jdTt dpsi eps : ℝ) : ℝ :=
  dpsi * Real.cos eps + complementaryTerms jdTt

/-- `gast_iau2006` (src/astro/sidereal.rs:117-126). -/
noncomputable def gast (jdUt1 jdTt dpsi eps : ℝ) : ℝ :=
  remEuclid (gmst jdUt1 jdTt + equationOfEquinoxes jdTt dpsi eps) tau

/-! ## Precession and nutation -/

/-- Fukushima–Williams angles (src/astro/precession.rs:69-105). -/
structure FwAngles where
  gamb : ℝ
  phib : ℝ
  psib : ℝ
  epsa : ℝ

/-- `precession_fw_angles` (src/astro/precession.rs:69-105). -/
noncomputable def fwAngles (jd : ℝ) : FwAngles :=
  let t := centuries jd
  ⟨arcsec (-0.052928 + 10.556378 * t + 0.4932044 * t ^ 2 - 0.00031238 * t ^ 3
      - 0.000002788 * t ^ 4 + 0.0000000260 * t ^ 5),
   arcsec (84381.412819 - 46.811016 * t + 0.0511268 * t ^ 2 + 0.00053289 * t ^ 3
      - 0.000000440 * t ^ 4 - 0.0000000176 * t ^ 5),
   arcsec (-0.041775 + 5038.481484 * t + 1.5584175 * t ^ 2 - 0.00018522 * t ^ 3
      - 0.000026452 * t ^ 4 - 0.0000000148 * t ^ 5),
   arcsec (84381.406 - 46.836769 * t - 0.0001831 * t ^ 2 + 0.00200340 * t ^ 3
      - 0.000000576 * t ^ 4 - 0.0000000434 * t ^ 5)⟩

/-- `mean_obliquity_iau2006` (src/astro/precession.rs:120-132). -/
noncomputable def meanObliquity (jd : ℝ) : ℝ :=
  let t := centuries jd
  arcsec (84381.406 - 46.836769 * t - 0.0001831 * t ^ 2 + 0.00200340 * t ^ 3
      - 0.000000576 * t ^ 4 - 0.0000000434 * t ^ 5)

/-- `fw_matrix` (src/astro/precession.rs:166-169); the fused constructor of `affn` is the product
named in lines 155-158. -/
noncomputable def fwMatrix (gamb phib psib epsa : ℝ) : M3 :=
  rx epsa * rz psib * rx (-phib) * rz (-gamb)

/-- `precession_matrix_iau2006` (src/astro/precession.rs:181-184). -/
noncomputable def precession (jd : ℝ) : M3 :=
  let a := fwAngles jd
  fwMatrix a.gamb a.phib a.psib a.epsa

/-- `precession_nutation_matrix` (src/astro/precession.rs:200-203). -/
noncomputable def precessionNutation (jd dpsi deps : ℝ) : M3 :=
  let a := fwAngles jd
  fwMatrix a.gamb a.phib (a.psib + dpsi) (a.epsa + deps)

/-- Nutation angles (src/astro/nutation/mod.rs:84-98). -/
structure Nut where
  dpsi : ℝ
  deps : ℝ
  meanObliquity : ℝ

/-- `Rotation3::fused_rx_rz_rx` as used by `nutation_rotation_iau2000b`
(src/astro/nutation/mod.rs:341-346) and `frames_inertial.rs:170-171`. -/
noncomputable def nutationMatrix (n : Nut) : M3 :=
  rx (n.meanObliquity + n.deps) * rz n.dpsi * rx (-n.meanObliquity)

/-- `gcrs_to_ecliptic_of_date_matrix` (src/astro/precession.rs:220-224). -/
noncomputable def gcrsToEclipticOfDate (jd : ℝ) : M3 := rx (-meanObliquity jd) * precession jd

/-- `gcrs_to_true_ecliptic_of_date_matrix` (src/astro/precession.rs:240-245). -/
noncomputable def gcrsToTrueEclipticOfDate (n : Nut) (jd : ℝ) : M3 :=
  rx (-(n.meanObliquity + n.deps)) * precessionNutation jd n.dpsi n.deps

/-- `mean_equatorial_to_ecliptic_of_date_matrix` (src/astro/precession.rs:272-275). -/
noncomputable def meanEquatorialToEclipticOfDate (jd : ℝ) : M3 := rx (-meanObliquity jd)

/-- `mean_equatorial_to_true_ecliptic_of_date_matrix` (src/astro/precession.rs:289-297). -/
noncomputable def meanEquatorialToTrueEcliptic (n : Nut) : M3 :=
  rx (-(n.meanObliquity + n.deps)) * nutationMatrix n

/-! ## Polar motion and the intermediate pole -/

/-- `tio_locator_sp` (src/astro/polar_motion.rs:55-58). -/
noncomputable def tioLocator (jd : ℝ) : ℝ := arcsec (-47 * centuries jd / 1000000)

/-- `polar_motion_matrix` (src/astro/polar_motion.rs:72-74). -/
noncomputable def polarMotion (xp yp sp : ℝ) : M3 := rz (-sp) * ry xp * rx yp

/-- `cip_xy` (src/astro/cio.rs:68-76). -/
noncomputable def cipXy (jd dpsi deps : ℝ) : ℝ × ℝ :=
  let m := precessionNutation jd dpsi deps
  (m 2 0, m 2 1)

/-- `cio_locator_s` (src/astro/cio.rs:96-105). -/
noncomputable def cioLocator (jd x y : ℝ) : ℝ :=
  let t := centuries jd;
  -0.5 * x * y + arcsec ((94 + 3808.65 * t - 122.68 * t ^ 2 - 72574.11 * t ^ 3) / 1000000)

/-- `gcrs_to_cirs_matrix` (src/astro/cio.rs:130-169). -/
noncomputable def cirsMatrix (x y s : ℝ) : M3 :=
  let r2 := x * x + y * y
  let e := atan2 y x
  let d := atan2 (Real.sqrt r2) (Real.sqrt (max (1 - r2) 0))
  let se := Real.sin e
  let ce := Real.cos e
  let sd := Real.sin d
  let cd := Real.cos d
  let ses := Real.sin (e + s)
  let ces := Real.cos (e + s)
  !![ces * cd * ce + ses * se, ces * cd * se - ses * ce, ces * sd;
     ses * cd * ce - ces * se, ses * cd * se + ces * ce, ses * sd;
     -sd * ce, -sd * se, cd]

/-! ## Earth orientation parameters and the transform context -/

/-- `EopValues` (src/astro/eop.rs:57-71): `dut1` in seconds, `xp`, `yp` in arcseconds, `dx`, `dy`
in milliarcseconds (the length of day is not used by the rotations). -/
structure Eop where
  dut1 : ℝ
  xp : ℝ
  yp : ℝ
  dx : ℝ
  dy : ℝ

/-- `EopValues::default` (src/astro/eop.rs:73-84). -/
def Eop.zero : Eop := ⟨0, 0, 0, 0, 0⟩

/-- A transform context: the nutation model, the provider's table (`eop_at`), and the conversions
of `tempoch`: `try_jd_utc_from_tt`, `jd_utc_from_tt_delta_t`, TT→UT1 with the loaded bundle and
the bundle's UT1−UTC (src/astro/earth_rotation.rs:95-174); and the two constant catalogue
matrices of `frames_catalog.rs:16-31, 57-73`. -/
structure Ctx where
  nut : ℝ → Nut
  eopAt : ℝ → Eop
  utcFromTt : ℝ → Option ℝ
  utcDeltaT : ℝ → ℝ
  ut1FromTt : ℝ → ℝ
  bundledDut1 : ℝ → Option ℝ
  galactic : M3
  fk4 : M3

/-- `GALACTIC_TO_ICRS` (src/coordinates/transform/providers/frames_catalog.rs:16-32). -/
noncomputable def galacticToIcrs : M3 :=
  !![-0.0548755604162154, -0.8734370902348851, -0.4838350155487132;
     0.4941094278755837, -0.4448296299600112, 0.7469822445802866;
     -0.8676661490190047, -0.1980763734312015, 0.4559837761750669]

/-- `FK4_TO_FK5` (frames_catalog.rs:57-73). -/
noncomputable def fk4ToFk5 : M3 :=
  !![0.9999256794956877, -0.0111814832204662, -0.0048590038153592;
     0.0111814832391717, 0.9999374848933135, -0.0000271625947142;
     0.0048590037723143, -0.0000271702937440, 0.9999881946023742]

/-- `AstroContext::eop_at_tt` (src/coordinates/transform/context.rs:185-192). -/
def Ctx.eopAtTt (c : Ctx) (jd : ℝ) : Eop :=
  match c.utcFromTt jd with
  | some utc => c.eopAt utc
  | none => c.eopAt (c.utcDeltaT jd)

/-- `jd_ut1_from_tt_eop` (src/astro/earth_rotation.rs:158-174). -/
noncomputable def Ctx.ut1 (c : Ctx) (jd : ℝ) (e : Eop) : ℝ :=
  let u := c.ut1FromTt jd
  u + (e.dut1 - (c.bundledDut1 (u - 2400000.5)).getD 0) / 86400

/-- `try_jd_utc_from_tt` (src/astro/earth_rotation.rs:95-117): `ut1` is the converted date, `table`
the UT1−UTC of the bundle in seconds at a UTC Modified Julian Date; `n` rounds (the code: 3). -/
noncomputable def utcRounds (table : ℝ → Option ℝ) (ut1 : ℝ) : Nat → ℝ → Option ℝ
  | 0, utc => some utc
  | n + 1, utc =>
    match table (utc - 2400000.5) with
    | none => none
    | some d => utcRounds table ut1 n (ut1 - d / 86400)

/-- `try_jd_utc_from_tt` (src/astro/earth_rotation.rs:95-117). -/
noncomputable def tryUtc (table : ℝ → Option ℝ) (ut1 : ℝ) : Option ℝ := utcRounds table ut1 3 ut1

open Classical in
/-- `nutation_with_celestial_pole_offsets` (src/astro/earth_rotation_provider.rs:54-76), also
inlined in `frames_inertial.rs:244-259`. -/
noncomputable def nutationWithOffsets (n : Nut) (e : Eop) : ℝ × ℝ :=
  let dx := arcsec (e.dx / 1000)
  let dy := arcsec (e.dy / 1000)
  if dx ≠ 0 ∨ dy ≠ 0 then
    let sinEps := Real.sin n.meanObliquity
    (if (1e-15 : ℝ) < abs sinEps then n.dpsi + dx / sinEps else n.dpsi, n.deps + dy)
  else (n.dpsi, n.deps)

/-- `gcrs_to_cirs_rotation` (src/coordinates/transform/providers/mod.rs:220-228). -/
noncomputable def Ctx.gcrsToCirs (c : Ctx) (jd : ℝ) (e : Eop) : M3 :=
  let d := nutationWithOffsets (c.nut jd) e
  let xy := cipXy jd d.1 d.2
  cirsMatrix xy.1 xy.2 (cioLocator jd xy.1 xy.2)

/-- `cirs_to_tirs_rotation` (providers/mod.rs:235-242). -/
noncomputable def Ctx.cirsToTirs (c : Ctx) (jd : ℝ) (e : Eop) : M3 :=
  rz (-earthRotationAngle (c.ut1 jd e))

/-- `tirs_to_itrf_rotation` (providers/mod.rs:249-255, polar_motion.rs:80-87). -/
noncomputable def tirsToItrf (jd : ℝ) (e : Eop) : M3 :=
  polarMotion (arcsec e.xp) (arcsec e.yp) (tioLocator jd)

/-- `frame_bias_matrix` (src/coordinates/transform/frames/bias.rs:51-54). -/
noncomputable def bias : M3 := precession 2451545

/-- `j2000_obliquity` (bias.rs:76-80). -/
noncomputable def j2000Obliquity : ℝ := 84381.406 * Real.pi / 648000

/-- `itrs_to_equatorial_mean_j2000_rotation` (src/astro/earth_rotation_provider.rs:98-124). -/
noncomputable def Ctx.itrsToJ2000 (c : Ctx) (jd : ℝ) : M3 :=
  let e := match c.utcFromTt jd with
    | some utc => c.eopAt utc
    | none => Eop.zero
  let q := c.gcrsToCirs jd e
  let w := tirsToItrf jd e
  let itrsToGcrs := q * c.cirsToTirs jd e * w.transpose
  bias * itrsToGcrs

/-- `observer_site_equatorial_mean_j2000_with_ctx`
(src/coordinates/transform/centers/position/to_topocentric.rs:53-70). -/
noncomputable def Ctx.sitePosition (c : Ctx) (site : V3) (jd : ℝ) : V3 :=
  (c.itrsToJ2000 jd).mulVec site

/-- `to_topocentric_with_ctx` (to_topocentric.rs:96-120); `toFrame` is the constant rotation from
the J2000 equator to the frame of the position. -/
noncomputable def Ctx.toTopocentric (c : Ctx) (toFrame : M3) (pos site : V3) (jd : ℝ) : V3 :=
  pos - toFrame.mulVec (c.sitePosition site jd)

/-- The reverse conversion (to_topocentric.rs:195-212). -/
noncomputable def Ctx.toGeocentric (c : Ctx) (toFrame : M3) (pos site : V3) (jd : ℝ) : V3 :=
  pos + toFrame.mulVec (c.sitePosition site jd)

/-- The diurnal part of `ObserverState::topocentric_with_ctx`
(src/coordinates/observation/observer_state.rs:140-164), in metres per second. -/
noncomputable def Ctx.diurnalVelocity (c : Ctx) (site : V3) (jd : ℝ) : V3 :=
  (c.itrsToJ2000 jd).mulVec
    ![-(site 1) * 7.2921150e-5, site 0 * 7.2921150e-5, 0]

/-! ## The network of frame rotations -/

/-- The frames connected by `FrameRotationProvider`, apart from the body-fixed ones. -/
inductive Frame
  | icrs | icrf | gcrs | eclipticJ2000 | meanJ2000 | eme2000 | meanOfDate | trueOfDate
  | teme | cirs | tirs | itrf | ecef | galactic | fk4
  deriving DecidableEq

/-- The matrices written out in the implementations. -/
inductive Lit
  | identity | icrsToEcliptic | bias | biasInv | eqToEcl | eclToEq
  | j2000ToMod | modToJ2000 | modToTod | j2000ToTod | todToJ2000
  | precession | precessionInv | icrsToTod | temeToTod
  | galactic | galacticInv | fk4ToIcrs | icrsToFk4 | fk4
  | gcrsToCirs | cirsToTirs | tirsToItrf
  deriving DecidableEq

/-- How an implementation obtains its matrix: written out, that of another pair of frames
(alias), composed through a third frame (`compose_rotation`, providers/mod.rs:148-159) or the
inverse of the opposite pair (`inverse_rotation`, 163-171). -/
inductive Step
  | lit (l : Lit)
  | alias (a b : Frame)
  | via (m : Frame)
  | inverse
  deriving DecidableEq

/-- The implementations of `FrameRotationProvider`: `providers/mod.rs:111-122`,
`frames_inertial.rs:50-329`, `frames_teme.rs:21-60`, `frames_catalog.rs:34-113`,
`frames_earth.rs:25-226`.  `none`: no implementation, a compile-time error. -/
def step (a b : Frame) : Option Step :=
  if a = b then some (.lit .identity) else
  match a, b with
  -- frames_inertial.rs:50-88
  | .icrs, .eclipticJ2000 => some (.lit .icrsToEcliptic)
  | .eclipticJ2000, .icrs => some .inverse
  | .icrs, .meanJ2000 => some (.lit .bias)
  | .meanJ2000, .icrs => some (.lit .biasInv)
  -- frames_inertial.rs:90-119
  | .eme2000, .meanJ2000 => some (.lit .identity)
  | .meanJ2000, .eme2000 => some .inverse
  | .eme2000, .icrs => some (.alias .meanJ2000 .icrs)
  | .icrs, .eme2000 => some .inverse
  | .eme2000, .eclipticJ2000 => some (.alias .meanJ2000 .eclipticJ2000)
  | .eclipticJ2000, .eme2000 => some .inverse
  | .eme2000, .meanOfDate => some (.alias .meanJ2000 .meanOfDate)
  | .meanOfDate, .eme2000 => some .inverse
  | .eme2000, .trueOfDate => some (.alias .meanJ2000 .trueOfDate)
  | .trueOfDate, .eme2000 => some .inverse
  | .eme2000, .icrf => some (.alias .meanJ2000 .icrf)
  | .icrf, .eme2000 => some .inverse
  | .eme2000, .gcrs => some (.alias .meanJ2000 .gcrs)
  | .gcrs, .eme2000 => some .inverse
  -- frames_inertial.rs:121-272
  | .meanJ2000, .eclipticJ2000 => some (.lit .eqToEcl)
  | .eclipticJ2000, .meanJ2000 => some (.lit .eclToEq)
  | .meanJ2000, .meanOfDate => some (.lit .j2000ToMod)
  | .meanOfDate, .meanJ2000 => some (.lit .modToJ2000)
  | .meanOfDate, .trueOfDate => some (.lit .modToTod)
  | .trueOfDate, .meanOfDate => some .inverse
  | .meanJ2000, .trueOfDate => some (.lit .j2000ToTod)
  | .trueOfDate, .meanJ2000 => some (.lit .todToJ2000)
  | .icrs, .meanOfDate => some (.lit .precession)
  | .meanOfDate, .icrs => some (.lit .precessionInv)
  | .icrs, .trueOfDate => some (.lit .icrsToTod)
  | .trueOfDate, .icrs => some .inverse
  -- frames_inertial.rs:274-329
  | .icrf, .icrs => some (.lit .identity)
  | .icrs, .icrf => some .inverse
  | .icrf, .meanJ2000 => some (.alias .icrs .meanJ2000)
  | .meanJ2000, .icrf => some .inverse
  | .icrf, .eclipticJ2000 => some (.alias .icrs .eclipticJ2000)
  | .eclipticJ2000, .icrf => some .inverse
  | .icrf, .meanOfDate => some (.alias .icrs .meanOfDate)
  | .meanOfDate, .icrf => some .inverse
  | .icrf, .trueOfDate => some (.alias .icrs .trueOfDate)
  | .trueOfDate, .icrf => some .inverse
  | .gcrs, .icrs => some (.lit .identity)
  | .icrs, .gcrs => some (.lit .identity)
  | .gcrs, .meanJ2000 => some (.alias .icrs .meanJ2000)
  | .meanJ2000, .gcrs => some .inverse
  | .gcrs, .trueOfDate => some (.alias .icrs .trueOfDate)
  | .trueOfDate, .gcrs => some .inverse
  | .gcrs, .eclipticJ2000 => some (.alias .icrs .eclipticJ2000)
  | .eclipticJ2000, .gcrs => some .inverse
  -- frames_teme.rs
  | .teme, .trueOfDate => some (.lit .temeToTod)
  | .trueOfDate, .teme => some .inverse
  | .teme, .icrs => some (.via .trueOfDate)
  | .icrs, .teme => some .inverse
  -- frames_catalog.rs
  | .galactic, .icrs => some (.lit .galactic)
  | .icrs, .galactic => some (.lit .galacticInv)
  | .galactic, .meanJ2000 => some (.via .icrs)
  | .meanJ2000, .galactic => some .inverse
  | .galactic, .eclipticJ2000 => some (.via .icrs)
  | .eclipticJ2000, .galactic => some .inverse
  | .fk4, .icrs => some (.lit .fk4ToIcrs)
  | .icrs, .fk4 => some (.lit .icrsToFk4)
  | .fk4, .meanJ2000 => some (.lit .fk4)
  | .meanJ2000, .fk4 => some .inverse
  -- frames_earth.rs:25-183
  | .gcrs, .cirs => some (.lit .gcrsToCirs)
  | .cirs, .gcrs => some .inverse
  | .cirs, .tirs => some (.lit .cirsToTirs)
  | .tirs, .cirs => some .inverse
  | .tirs, .itrf => some (.lit .tirsToItrf)
  | .itrf, .tirs => some .inverse
  | .itrf, .ecef => some (.lit .identity)
  | .ecef, .itrf => some .inverse
  | .icrs, .cirs => some (.alias .gcrs .cirs)
  | .cirs, .icrs => some .inverse
  | .icrs, .tirs => some (.via .cirs)
  | .tirs, .icrs => some .inverse
  | .icrs, .itrf => some (.via .tirs)
  | .itrf, .icrs => some .inverse
  | .icrs, .ecef => some (.alias .icrs .itrf)
  | .ecef, .icrs => some .inverse
  -- frames_earth.rs:185-226 (`impl_via_icrs_bidirectional!`, mod.rs:285-307)
  | a, b =>
    if a ∈ [.eclipticJ2000, .meanJ2000, .eme2000, .meanOfDate, .trueOfDate, .icrf, .teme,
        .galactic, .fk4] ∧ b ∈ [.cirs, .tirs, .itrf, .ecef] then some (.via .icrs)
    else if b ∈ [.eclipticJ2000, .meanJ2000, .eme2000, .meanOfDate, .trueOfDate, .icrf, .teme,
        .galactic, .fk4] ∧ a ∈ [.cirs, .tirs, .itrf, .ecef] then some .inverse
    else if a = .gcrs ∧ b ∈ [.tirs, .itrf, .ecef] then some (.via .icrs)
    else if b = .gcrs ∧ a ∈ [.tirs, .itrf, .ecef] then some .inverse
    else none

/-- The expression a rotation request unfolds to. -/
inductive Plan
  | lit (l : Lit)
  | mul (p q : Plan)
  | inv (p : Plan)

/-- Unfolding of the trait calls; `fuel` bounds the depth of the calls. -/
def plan : Nat → Frame → Frame → Option Plan
  | 0, _, _ => none
  | n + 1, a, b =>
    match step a b with
    | none => none
    | some (.lit l) => some (.lit l)
    | some (.alias a' b') => plan n a' b'
    | some (.via m) =>
      match plan n a m, plan n m b with
      | some left, some right => some (.mul right left)
      | _, _ => none
    | some .inverse => (plan n b a).map .inv

/-- The matrices written out in the implementations (line references as in `step`). -/
noncomputable def Lit.value (c : Ctx) (jd : ℝ) : Lit → M3
  | .identity => 1
  | .icrsToEcliptic => rx (-j2000Obliquity) * Earth.bias
  | .bias => Earth.bias
  | .biasInv => Earth.bias.transpose
  | .eqToEcl => rx (-j2000Obliquity)
  | .eclToEq => rx j2000Obliquity
  | .j2000ToMod => Earth.precession jd * Earth.bias.transpose
  | .modToJ2000 => (Earth.precession jd * Earth.bias.transpose).transpose
  | .modToTod => nutationMatrix (c.nut jd)
  | .j2000ToTod => precessionNutation jd (c.nut jd).dpsi (c.nut jd).deps * Earth.bias.transpose
  | .todToJ2000 =>
    (precessionNutation jd (c.nut jd).dpsi (c.nut jd).deps * Earth.bias.transpose).transpose
  | .precession => Earth.precession jd
  | .precessionInv => (Earth.precession jd).transpose
  | .icrsToTod =>
    let d := nutationWithOffsets (c.nut jd) (c.eopAtTt jd)
    precessionNutation jd d.1 d.2
  | .temeToTod => rz ((c.nut jd).dpsi * Real.cos (c.nut jd).meanObliquity)
  | .galactic => c.galactic
  | .galacticInv => c.galactic.transpose
  | .fk4ToIcrs => Earth.bias.transpose * c.fk4
  | .icrsToFk4 => c.fk4.transpose * Earth.bias
  | .fk4 => c.fk4
  | .gcrsToCirs => c.gcrsToCirs jd (c.eopAtTt jd)
  | .cirsToTirs => c.cirsToTirs jd (c.eopAtTt jd)
  | .tirsToItrf => Earth.tirsToItrf jd (c.eopAtTt jd)

noncomputable def Plan.value (c : Ctx) (jd : ℝ) : Plan → M3
  | .lit l => l.value c jd
  | .mul p q => p.value c jd * q.value c jd
  | .inv p => (p.value c jd).transpose

/-- `frame_rotation_as` (providers/mod.rs:535-546): the matrix returned for a pair of frames;
calls nest at most eight deep. -/
noncomputable def rotation (c : Ctx) (jd : ℝ) (a b : Frame) : Option M3 :=
  (plan 8 a b).map (Plan.value c jd)

end Verif.Earth
