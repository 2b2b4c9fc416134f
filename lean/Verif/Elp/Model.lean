import Mathlib.Analysis.SpecialFunctions.Trigonometric.Basic
import Mathlib.Analysis.SpecialFunctions.Sqrt

/-!
# The lunar theory ELP 2000-82B and the series for Pluto

Model of `src/ephemeris/elp2000/elp_series.rs` and `src/ephemeris/pluto.rs`.  Exact real arithmetic.  The
coefficient tables and the constants live in another crate (`archive`) and are parameters; so is the four-lane sine of
the crate `wide`, an approximation of its own.  Lengths in kilometres (the final change of unit is left out).
-/

namespace Verif.Elp

/-- `MainProblem` (fields used at elp_series.rs:158-236). -/
structure Main where
  a : ℝ
  b : Fin 5 → ℝ
  ilu : Fin 4 → ℤ

/-- `EarthPert` (fields used at elp_series.rs:278-343). -/
structure EarthT where
  a : ℝ
  o : ℝ
  iz : ℝ
  ilu : Fin 4 → ℤ

/-- `PlanetPert` (fields used at elp_series.rs:391-472). -/
structure Planet where
  theta : ℝ
  o : ℝ
  ipla : Fin 11 → ℤ

/-- The constants of `archive::elp::constants` (imported at elp_series.rs:59-62); angles in radians. -/
structure Const where
  delnp : ℝ
  am : ℝ
  delnu : ℝ
  dtasm : ℝ
  delg : ℝ
  dele : ℝ
  delep : ℝ
  del : Fin 4 → Fin 5 → ℝ
  zeta : Fin 2 → ℝ
  pArgs : Fin 8 → Fin 2 → ℝ
  w1 : Fin 5 → ℝ
  a0 : ℝ
  ath : ℝ
  p : Fin 5 → ℝ
  q : Fin 5 → ℝ

/-- The coefficient tables by number of the series (`elp_data::ELP1` to `ELP36`). -/
structure Tables where
  main : ℕ → List Main
  earth : ℕ → List EarthT
  planet : ℕ → List Planet

/-- `ElpPrecomputed` (elp_series.rs:87-98). -/
structure Pre where
  t : Fin 5 → ℝ
  delFull : Fin 4 → ℝ
  delLin : Fin 4 → ℝ
  zetaLin : ℝ
  pLin : Fin 8 → ℝ

/-- `ElpPrecomputed::from_t` (elp_series.rs:102-131). -/
def fromT (k : Const) (t : Fin 5 → ℝ) : Pre where
  t := t
  delFull := fun i => k.del i 0 + k.del i 1 * t 1 + k.del i 2 * t 2 + k.del i 3 * t 3 + k.del i 4 * t 4
  delLin := fun i => k.del i 0 + k.del i 1 * t 1
  zetaLin := k.zeta 0 + k.zeta 1 * t 1
  pLin := fun i => k.pArgs i 0 + k.pArgs i 1 * t 1

/-- The terms left over, one at a time (elp_series.rs:219-235, 324-343, 463-471); two of the three loops pass over
terms of amplitude zero. -/
noncomputable def leftover {α : Type} (skip : Bool) (coef arg : α → ℝ) : List α → ℝ → ℝ
  | [], s => s
  | e :: es, s =>
    open Classical in
    if skip ∧ coef e = 0 then leftover skip coef arg es s
    else leftover skip coef arg es (s + coef e * Real.sin (arg e))

/-- Four terms at a time (elp_series.rs:150-236, 271-345, 429-473): `wide` is the four-lane sine. -/
noncomputable def batched {α : Type} (wide : ℝ → ℝ) (skip : Bool) (coef arg : α → ℝ) : List α → ℝ → ℝ
  | e0 :: e1 :: e2 :: e3 :: es, s =>
    batched wide skip coef arg es (s + (coef e0 * wide (arg e0) + coef e1 * wide (arg e1) + coef e2 * wide (arg e2) +
      coef e3 * wide (arg e3)))
  | es, s => leftover skip coef arg es s

/-- Coefficient of a main term (elp_series.rs:143, 164-189). -/
def mainCoef (k : Const) (e : Main) : ℝ :=
  e.a + (e.b 0 + k.dtasm * e.b 4) * (k.delnp - k.am * k.delnu) + e.b 1 * k.delg + e.b 2 * k.dele + e.b 3 * k.delep

/-- Argument of a main term (elp_series.rs:191-210). -/
def mainArg (pc : Pre) (off : ℝ) (e : Main) : ℝ :=
  off + pc.delFull 0 * e.ilu 0 + pc.delFull 1 * e.ilu 1 + pc.delFull 2 * e.ilu 2 + pc.delFull 3 * e.ilu 3

/-- `sum_main_problem_series` (elp_series.rs:141-237). -/
noncomputable def sumMain (wide : ℝ → ℝ) (k : Const) (pc : Pre) (off : ℝ) (series : List Main) : ℝ :=
  batched wide false (mainCoef k) (mainArg pc off) series 0

/-- Amplitude of an earth term (elp_series.rs:284-289, 325-329). -/
def earthCoef (pc : Pre) (scale : Option (Fin 5)) (e : EarthT) : ℝ :=
  match scale with
  | some i => e.a * pc.t i
  | none => e.a

/-- `f64::to_radians`. -/
noncomputable def toRadians (d : ℝ) : ℝ := d * (Real.pi / 180)

/-- Argument of an earth term (elp_series.rs:292-315). -/
noncomputable def earthArg (pc : Pre) (e : EarthT) : ℝ :=
  toRadians e.o + pc.zetaLin * e.iz + pc.delLin 0 * e.ilu 0 + pc.delLin 1 * e.ilu 1 + pc.delLin 2 * e.ilu 2 +
    pc.delLin 3 * e.ilu 3

/-- `sum_earth_pert_series` (elp_series.rs:260-345). -/
noncomputable def sumEarth (wide : ℝ → ℝ) (pc : Pre) (scale : Option (Fin 5)) (series : List EarthT) : ℝ :=
  batched wide true (earthCoef pc scale) (earthArg pc) series 0

/-- `compute_planet_arg` (elp_series.rs:391-417). -/
noncomputable def planetArg (pc : Pre) (alt : Bool) (e : Planet) : ℝ :=
  if alt then
    toRadians e.theta + (pc.delLin 0 * e.ipla 7 + pc.delLin 1 * e.ipla 8 + pc.delLin 2 * e.ipla 9 + pc.delLin 3 * e.ipla 10) +
      pc.pLin 0 * e.ipla 0 + pc.pLin 1 * e.ipla 1 + pc.pLin 2 * e.ipla 2 + pc.pLin 3 * e.ipla 3 + pc.pLin 4 * e.ipla 4 +
      pc.pLin 5 * e.ipla 5 + pc.pLin 6 * e.ipla 6
  else
    toRadians e.theta + (pc.delLin 0 * e.ipla 8 + pc.delLin 2 * e.ipla 9 + pc.delLin 3 * e.ipla 10) +
      pc.pLin 0 * e.ipla 0 + pc.pLin 1 * e.ipla 1 + pc.pLin 2 * e.ipla 2 + pc.pLin 3 * e.ipla 3 + pc.pLin 4 * e.ipla 4 +
      pc.pLin 5 * e.ipla 5 + pc.pLin 6 * e.ipla 6 + pc.pLin 7 * e.ipla 7

/-- Amplitude of a planetary term (elp_series.rs:443-448, 464). -/
def planetCoef (pc : Pre) (scale : Bool) (e : Planet) : ℝ := if scale then e.o * pc.t 1 else e.o

/-- `sum_planet_pert_series` (elp_series.rs:423-474). -/
noncomputable def sumPlanet (wide : ℝ → ℝ) (pc : Pre) (scale alt : Bool) (series : List Planet) : ℝ :=
  batched wide true (planetCoef pc scale) (planetArg pc alt) series 0

/-- The 36 series (elp_series.rs:248-250, 357-383, 486-500). -/
noncomputable def value (wide : ℝ → ℝ) (k : Const) (d : Tables) (pc : Pre) : ℕ → ℝ
  | 1 => sumMain wide k pc 0 (d.main 1)
  | 2 => sumMain wide k pc 0 (d.main 2)
  | 3 => sumMain wide k pc (Real.pi / 2) (d.main 3)
  | 4 => sumEarth wide pc none (d.earth 4)
  | 5 => sumEarth wide pc none (d.earth 5)
  | 6 => sumEarth wide pc none (d.earth 6)
  | 7 => sumEarth wide pc (some 1) (d.earth 7)
  | 8 => sumEarth wide pc (some 1) (d.earth 8)
  | 9 => sumEarth wide pc (some 1) (d.earth 9)
  | 10 => sumPlanet wide pc false false (d.planet 10)
  | 11 => sumPlanet wide pc false false (d.planet 11)
  | 12 => sumPlanet wide pc false false (d.planet 12)
  | 13 => sumPlanet wide pc true false (d.planet 13)
  | 14 => sumPlanet wide pc true false (d.planet 14)
  | 15 => sumPlanet wide pc true false (d.planet 15)
  | 16 => sumPlanet wide pc false true (d.planet 16)
  | 17 => sumPlanet wide pc false true (d.planet 17)
  | 18 => sumPlanet wide pc false true (d.planet 18)
  | 19 => sumPlanet wide pc true true (d.planet 19)
  | 20 => sumPlanet wide pc true true (d.planet 20)
  | 21 => sumPlanet wide pc true true (d.planet 21)
  | 22 => sumEarth wide pc none (d.earth 22)
  | 23 => sumEarth wide pc none (d.earth 23)
  | 24 => sumEarth wide pc none (d.earth 24)
  | 25 => sumEarth wide pc (some 1) (d.earth 25)
  | 26 => sumEarth wide pc (some 1) (d.earth 26)
  | 27 => sumEarth wide pc (some 1) (d.earth 27)
  | 28 => sumEarth wide pc none (d.earth 28)
  | 29 => sumEarth wide pc none (d.earth 29)
  | 30 => sumEarth wide pc none (d.earth 30)
  | 31 => sumEarth wide pc none (d.earth 31)
  | 32 => sumEarth wide pc none (d.earth 32)
  | 33 => sumEarth wide pc none (d.earth 33)
  | 34 => sumEarth wide pc (some 2) (d.earth 34)
  | 35 => sumEarth wide pc (some 2) (d.earth 35)
  | 36 => sumEarth wide pc (some 2) (d.earth 36)
  | _ => 0

/-- The powers of time (elp_series.rs:708-712). -/
def powers (t1 : ℝ) : Fin 5 → ℝ := ![1, t1, t1 * t1, t1 * t1 * t1, t1 * t1 * (t1 * t1)]

/-- The sums of longitude, latitude and distance (elp_series.rs:716-755). -/
noncomputable def sums (wide : ℝ → ℝ) (k : Const) (d : Tables) (pc : Pre) : ℝ × ℝ × ℝ :=
  ([1, 4, 7, 10, 13, 16, 19, 22, 25, 28, 31, 34].foldl (fun a n => a + value wide k d pc n) 0,
   [2, 5, 8, 11, 14, 17, 20, 23, 26, 29, 32, 35].foldl (fun a n => a + value wide k d pc n) 0,
   [3, 6, 9, 12, 15, 18, 21, 24, 27, 30, 33, 36].foldl (fun a n => a + value wide k d pc n) 0)

/-- The rotation to the ecliptic of J2000 (elp_series.rs:775-789); `none` where the square root is of a negative
number, i.e. the components are not numbers. -/
noncomputable def laskar (pw qw : ℝ) (v : ℝ × ℝ × ℝ) : Option (ℝ × ℝ × ℝ) :=
  open Classical in
  if 1 - pw * pw - qw * qw < 0 then none
  else
    let ra := 2 * Real.sqrt (1 - pw * pw - qw * qw)
    let pw2 := 1 - 2 * pw * pw
    let qw2 := 1 - 2 * qw * qw
    let pwqw := 2 * pw * qw
    some (pw2 * v.1 + pwqw * v.2.1 + pw * ra * v.2.2, pwqw * v.1 + qw2 * v.2.1 - qw * ra * v.2.2,
      -(pw * ra) * v.1 + qw * ra * v.2.1 + (pw2 + qw2 - 1) * v.2.2)

/-- `Moon::get_geo_position` (elp_series.rs:704-796), by Julian centuries from J2000. -/
noncomputable def geo (wide : ℝ → ℝ) (k : Const) (d : Tables) (t1 : ℝ) : Option (ℝ × ℝ × ℝ) :=
  let t := powers t1
  let pc := fromT k t
  let s := sums wide k d pc
  let lon := s.1 / 3600 * (Real.pi / 180) + k.w1 0 + k.w1 1 * t 1 + k.w1 2 * t 2 + k.w1 3 * t 3 + k.w1 4 * t 4
  let lat := s.2.1 / 3600 * (Real.pi / 180)
  let dist := s.2.2 * (k.a0 / k.ath)
  let pw := (k.p 0 + k.p 1 * t 1 + k.p 2 * t 2 + k.p 3 * t 3 + k.p 4 * t 4) * t 1
  let qw := (k.q 0 + k.q 1 * t 1 + k.q 2 * t 2 + k.q 3 * t 3 + k.q 4 * t 4) * t 1
  laskar pw qw (dist * Real.cos lat * Real.cos lon, dist * Real.cos lat * Real.sin lon, dist * Real.sin lat)

/-- One row of the four tables for Pluto (used at pluto.rs:66-80); the tables have one length. -/
structure Row where
  j : ℝ
  s : ℝ
  p : ℝ
  lonA : ℝ
  lonB : ℝ
  latA : ℝ
  latB : ℝ
  radA : ℝ
  radB : ℝ

/-- Argument of a row in radians (pluto.rs:53-55, 66-71). -/
noncomputable def plutoArg (t : ℝ) (r : Row) : ℝ :=
  ((34.35 + 3034.9057 * t) * r.j + (50.08 + 1222.1138 * t) * r.s + (238.96 + 144.96 * t) * r.p) * (Real.pi / 180)

/-- The loop (pluto.rs:57-81). -/
noncomputable def plutoSums (t : ℝ) : List Row → ℝ × ℝ × ℝ → ℝ × ℝ × ℝ
  | [], acc => acc
  | r :: rs, acc =>
    let sa := Real.sin (plutoArg t r)
    let ca := Real.cos (plutoArg t r)
    plutoSums t rs (acc.1 + (r.lonA * sa + r.lonB * ca), acc.2.1 + (r.latA * sa + r.latB * ca),
      acc.2.2 + (r.radA * sa + r.radB * ca))

/-- `Pluto::get_heliocentric` (pluto.rs:49-94), by Julian centuries from J2000; astronomical units. -/
noncomputable def pluto (rows : List Row) (t : ℝ) : ℝ × ℝ × ℝ :=
  let s := plutoSums t rows (0, 0, 0)
  let lon := (s.1 * 0.000001 + (238.958116 + 144.96 * t)) * (Real.pi / 180)
  let lat := (s.2.1 * 0.000001 - 3.908239) * (Real.pi / 180)
  let rad := s.2.2 * 0.0000001 + 40.7241346
  (rad * Real.cos lat * Real.cos lon, rad * Real.cos lat * Real.sin lon, rad * Real.sin lat)

end Verif.Elp
