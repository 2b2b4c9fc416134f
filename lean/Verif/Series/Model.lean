import Mathlib.Analysis.SpecialFunctions.Trigonometric.Inverse
import Mathlib.Analysis.SpecialFunctions.Complex.Arg
import Mathlib.Algebra.Order.Floor.Ring
import Mathlib.Data.Real.Archimedean

/-!
# Trigonometric series: VSOP87, nutation, the short lunar theory

Exact real arithmetic (so fused products are plain ones). The tables live in another crate and are parameters; the conversion from
TT to TDB is a parameter. The four-lane sine and cosine of the crate `wide` are parameters as well: they are approximations of their own.
-/
namespace Verif.Series

/-! ### VSOP87 -/

/-- `Vsop87 { a, b, c }` of the tables. -/
structure Term where
  a : ℝ
  b : ℝ
  c : ℝ

/-- The sine and cosine of the crate `wide`, used for full groups of four terms. -/
structure Wide where
  sin : ℝ → ℝ
  cos : ℝ → ℝ

/-- vsop87_impl.rs 96: `c * t + b`. -/
def arg (m : Term) (t : ℝ) : ℝ := m.c * t + m.b

/-- vsop87_impl.rs 112-116: the terms left over. -/
noncomputable def tailValue (t : ℝ) : List Term → ℝ → ℝ
  | [], acc => acc
  | m :: ms, acc => tailValue t ms (acc + m.a * Real.cos (arg m t))

/-- vsop87_impl.rs 80-116: one power, four terms at a time. -/
noncomputable def serieValue (w : Wide) (t : ℝ) : List Term → ℝ → ℝ
  | m0 :: m1 :: m2 :: m3 :: rest, acc =>
    serieValue w t rest (acc + m0.a * w.cos (arg m0 t) + m1.a * w.cos (arg m1 t) + m2.a * w.cos (arg m2 t) + m3.a * w.cos (arg m3 t))
  | rest, acc => tailValue t rest acc

/-- vsop87_impl.rs 79-120: all powers. -/
noncomputable def valueLoop (w : Wide) (t : ℝ) : List (List Term) → ℝ → ℝ → ℝ
  | [], _, value => value
  | terms :: rest, pow, value => valueLoop w t rest (pow * t) (pow * serieValue w t terms 0 + value)

/-- vsop87_impl.rs 75-123 (`coord_value`). -/
noncomputable def coordValue (w : Wide) (series : List (List Term)) (t : ℝ) : ℝ := valueLoop w t series 1 0

/-- vsop87_impl.rs 173-179: the terms left over, value and derivative. -/
noncomputable def tailBoth (t : ℝ) : List Term → ℝ × ℝ → ℝ × ℝ
  | [], acc => acc
  | m :: ms, (v, d) => tailBoth t ms (v + m.a * Real.cos (arg m t), d - m.a * m.c * Real.sin (arg m t))

/-- vsop87_impl.rs 134-179, 201-244. -/
noncomputable def serieBoth (w : Wide) (t : ℝ) : List Term → ℝ × ℝ → ℝ × ℝ
  | m0 :: m1 :: m2 :: m3 :: rest, (v, d) =>
    serieBoth w t rest
      (v + m0.a * w.cos (arg m0 t) + m1.a * w.cos (arg m1 t) + m2.a * w.cos (arg m2 t) + m3.a * w.cos (arg m3 t),
       d - m0.a * m0.c * w.sin (arg m0 t) - m1.a * m1.c * w.sin (arg m1 t) - m2.a * m2.c * w.sin (arg m2 t) - m3.a * m3.c * w.sin (arg m3 t))
  | rest, acc => tailBoth t rest acc

/-- vsop87_impl.rs 133-186: `k`, `t_pow`, `t_pow_der`, `deriv_t`. -/
noncomputable def derivLoop (w : Wide) (t : ℝ) : List (List Term) → Nat → ℝ → ℝ → ℝ → ℝ
  | [], _, _, _, deriv => deriv
  | terms :: rest, k, pow, powDer, deriv =>
    let s := serieBoth w t terms (0, 0)
    derivLoop w t rest (k + 1) (pow * t) ((k + 1) * pow) (powDer * s.1 + (pow * s.2 + deriv))

/-- `DT_DT` (vsop87_impl.rs 51-55): a Julian century has 36525 days. -/
noncomputable def dtDt : ℝ := 1 / (36525 * 10)

/-- vsop87_impl.rs 128-189 (`coord_deriv`). -/
noncomputable def coordDeriv (w : Wide) (series : List (List Term)) (t : ℝ) : ℝ := derivLoop w t series 0 1 0 0 * dtDt

/-- vsop87_impl.rs 200-252. -/
noncomputable def bothLoop (w : Wide) (t : ℝ) : List (List Term) → Nat → ℝ → ℝ → ℝ × ℝ → ℝ × ℝ
  | [], _, _, _, acc => acc
  | terms :: rest, k, pow, powDer, (value, deriv) =>
    let s := serieBoth w t terms (0, 0)
    bothLoop w t rest (k + 1) (pow * t) ((k + 1) * pow) (pow * s.1 + value, powDer * s.1 + (pow * s.2 + deriv))

/-- vsop87_impl.rs 194-255 (`coord_both`). -/
noncomputable def coordBoth (w : Wide) (series : List (List Term)) (t : ℝ) : ℝ × ℝ :=
  let r := bothLoop w t series 0 1 0 (0, 0)
  (r.1, r.2 * dtDt)

/-- vsop87_impl.rs 267: millennia of TDB. -/
noncomputable def millennia (tdb : ℝ → ℝ) (jd : ℝ) : ℝ := (tdb jd - 2451545) / 36525 / 10

/-- The tables of one body. -/
structure Tables where
  x : List (List Term)
  y : List (List Term)
  z : List (List Term)

/-- vsop87_impl.rs 261-274. -/
noncomputable def position (w : Wide) (tdb : ℝ → ℝ) (s : Tables) (jd : ℝ) : ℝ × ℝ × ℝ :=
  let t := millennia tdb jd
  (coordValue w s.x t, coordValue w s.y t, coordValue w s.z t)

/-- vsop87_impl.rs 276-289. -/
noncomputable def velocity (w : Wide) (tdb : ℝ → ℝ) (s : Tables) (jd : ℝ) : ℝ × ℝ × ℝ :=
  let t := millennia tdb jd
  (coordDeriv w s.x t, coordDeriv w s.y t, coordDeriv w s.z t)

/-- vsop87_impl.rs 293-306. -/
noncomputable def positionVelocity (w : Wide) (tdb : ℝ → ℝ) (s : Tables) (jd : ℝ) : (ℝ × ℝ × ℝ) × (ℝ × ℝ × ℝ) :=
  let t := millennia tdb jd
  let x := coordBoth w s.x t
  let y := coordBoth w s.y t
  let z := coordBoth w s.z t
  ((x.1, y.1, z.1), (x.2, y.2, z.2))

/-- The bodies with a method `vsop87a` (vsop87a.rs 110-171), and the names of the tables of VSOP87A. -/
inductive Body | mercury | venus | earth | mars | jupiter | saturn | uranus | neptune | moon
deriving DecidableEq

inductive Table | mercury | venus | earth | emb | mars | jupiter | saturn | uranus | neptune
deriving DecidableEq

/-- vsop87a.rs 110-171. -/
def tableOf : Body → Table
  | .mercury => .mercury
  | .venus => .venus
  | .earth => .earth
  | .mars => .mars
  | .jupiter => .jupiter
  | .saturn => .saturn
  | .uranus => .uranus
  | .neptune => .neptune
  | .moon => .emb

noncomputable def vsop87a (w : Wide) (tdb : ℝ → ℝ) (data : Table → Tables) (b : Body) (jd : ℝ) : ℝ × ℝ × ℝ := position w tdb (data (tableOf b)) jd

/-! ### Nutation -/

/-- `f64::trunc`. -/
noncomputable def trunc (x : ℝ) : ℤ := if 0 ≤ x then ⌊x⌋ else ⌈x⌉

/-- `x % m`: the remainder with the sign of `x`. -/
noncomputable def fmod (x m : ℝ) : ℝ := x - m * trunc (x / m)

/-- `f64::rem_euclid` for a positive modulus. -/
noncomputable def remEuclid (x m : ℝ) : ℝ := x - m * ⌊x / m⌋

noncomputable def tau : ℝ := 2 * Real.pi
noncomputable def as2r : ℝ := Real.pi / (180 * 3600)
noncomputable def turnAs : ℝ := 1296000

/-- nut00a.rs 104-112. -/
noncomputable def faL (t : ℝ) : ℝ := fmod (485868.249036 + 1717915923.2178 * t + 31.8792 * (t * t) + 0.051635 * (t * t * t) - 0.00024470 * (t * t * t * t)) turnAs * as2r
/-- nut00a.rs 118-126. -/
noncomputable def faLp (t : ℝ) : ℝ := fmod (1287104.79305 + 129596581.0481 * t - 0.5532 * (t * t) + 0.000136 * (t * t * t) - 0.00001149 * (t * t * t * t)) turnAs * as2r
/-- nut00a.rs 129-137. -/
noncomputable def faF (t : ℝ) : ℝ := fmod (335779.526232 + 1739527262.8478 * t - 12.7512 * (t * t) - 0.001037 * (t * t * t) + 0.000000417 * (t * t * t * t)) turnAs * as2r
/-- nut00a.rs 140-148. -/
noncomputable def faD (t : ℝ) : ℝ := fmod (1072260.70369 + 1602961601.2090 * t - 6.3706 * (t * t) + 0.006593 * (t * t * t) - 0.00003169 * (t * t * t * t)) turnAs * as2r
/-- nut00a.rs 151-158. -/
noncomputable def faOm (t : ℝ) : ℝ := fmod (450160.398036 - 6962890.5431 * t + 7.4722 * (t * t) + 0.007702 * (t * t * t) - 0.00005939 * (t * t * t * t)) turnAs * as2r

/-- nut00a.rs 48-94, 165-193: the thirteen planetary arguments. -/
noncomputable def planetary (t : ℝ) : List ℝ :=
  [fmod (2.35555598 + 8328.6914269554 * t) tau, fmod (1.627905234 + 8433.466158131 * t) tau, fmod (5.198466741 + 7771.3771468121 * t) tau,
   fmod (2.18243920 - 33.757045 * t) tau, fmod (4.402608842 + 2608.7903141574 * t) tau, fmod (3.176146697 + 1021.3285546211 * t) tau,
   fmod (1.753470314 + 628.3075849991 * t) tau, fmod (6.203480913 + 334.0612426700 * t) tau, fmod (0.599546497 + 52.9690962641 * t) tau,
   fmod (0.874016757 + 21.3299104960 * t) tau, fmod (5.481293872 + 7.4781598567 * t) tau, fmod (5.321159000 + 3.8127774000 * t) tau,
   (0.024381750 + 0.00000538691 * t) * t]

/-- nut00a.rs 228-233. -/
noncomputable def lunisolar (t : ℝ) : List ℝ := [faL t, faLp t, faF t, faD t, faOm t]

/-- A row: the multiples of the arguments; the coefficients of Δψ (sine, sine × t, cosine) and of Δε (cosine, cosine × t, sine). -/
structure Row where
  n : List ℝ
  s : ℝ
  st : ℝ
  c : ℝ
  ec : ℝ
  ect : ℝ
  es : ℝ

/-- nut00a.rs 240: from left to right. -/
def combine : List ℝ → List ℝ → ℝ → ℝ
  | n :: ns, a :: as, acc => combine ns as (acc + n * a)
  | _, _, acc => acc

/-- nut00a.rs 239-245, without the reduction of the argument: `arg` is given. -/
noncomputable def step (t : ℝ) (r : Row) (arg : ℝ) (acc : ℝ × ℝ) : ℝ × ℝ :=
  (acc.1 + ((r.s + r.st * t) * Real.sin arg + r.c * Real.cos arg), acc.2 + ((r.ec + r.ect * t) * Real.cos arg + r.es * Real.sin arg))

/-- nut00a.rs 236-245, 266-287: from the last row to the first. The planetary rows have no coefficients with `t`. -/
noncomputable def sumRev (t : ℝ) (args : List ℝ) (rows : List Row) : ℝ × ℝ :=
  rows.reverse.foldl (fun acc r => step t r (fmod (combine r.n args 0) tau) acc) (0, 0)

/-- `U2R` (nut00a.rs 200). -/
noncomputable def u2r : ℝ := as2r / 10 ^ 7

/-- nut00a.rs 225-293. -/
noncomputable def nut00aRaw (ls pl : List Row) (jd : ℝ) : ℝ × ℝ :=
  let t := (jd - 2451545) / 36525
  let a := sumRev t (lunisolar t) ls
  let b := sumRev t (planetary t) pl
  (a.1 * u2r + b.1 * u2r, a.2 * u2r + b.2 * u2r)

/-- nut00a.rs 306-320: Δψ and Δε. -/
noncomputable def nut06a (ls pl : List Row) (jd : ℝ) : ℝ × ℝ :=
  let t := (jd - 2451545) / 36525
  let fj2 := -2.7774e-6 * t
  let r := nut00aRaw ls pl jd
  (r.1 + r.1 * (0.4697e-6 + fj2), r.2 + r.2 * fj2)

/-- mod.rs 216-256. -/
noncomputable def delaunay (t : ℝ) : List ℝ :=
  [remEuclid (485868.249036 + 1717915923.2178 * t + 31.8792 * (t * t) + 0.051635 * (t * t * t) - 0.00024470 * (t * t * t * t)) 1296000 * Real.pi / 648000,
   remEuclid (1287104.793048 + 129596581.0481 * t - 0.5532 * (t * t) + 0.000136 * (t * t * t) - 0.00001149 * (t * t * t * t)) 1296000 * Real.pi / 648000,
   remEuclid (335779.526232 + 1739527262.8478 * t - 12.7512 * (t * t) - 0.001037 * (t * t * t) + 0.000000417 * (t * t * t * t)) 1296000 * Real.pi / 648000,
   remEuclid (1072260.703692 + 1602961601.2090 * t - 6.3706 * (t * t) + 0.006593 * (t * t * t) - 0.00003169 * (t * t * t * t)) 1296000 * Real.pi / 648000,
   remEuclid (450160.398036 - 6962890.5431 * t + 7.4722 * (t * t) + 0.007702 * (t * t * t) - 0.00005939 * (t * t * t * t)) 1296000 * Real.pi / 648000]

/-- mod.rs 281-325: Δψ and Δε. -/
noncomputable def nut00b (rows : List Row) (jd : ℝ) : ℝ × ℝ :=
  let t := (jd - 2451545) / 36525
  let s := rows.foldl (fun acc r => step t r (combine r.n (delaunay t) 0) acc) (0, 0)
  let unit := Real.pi / (180 * 3600 * 10 ^ 7)
  ((s.1 + -1350) * unit, (s.2 + 3880) * unit)

/-- mod.rs 109-118. -/
inductive Model | iau2000A | iau2000B | iau2006 | iau2006A
deriving DecidableEq

/-- The tables of the crate with the archive. -/
structure NutTables where
  ls : List Row
  pl : List Row
  b : List Row

/-- mod.rs 158-176: Δψ, Δε. The mean obliquity is that of IAU 2006 for all models. -/
noncomputable def nutation (tab : NutTables) : Model → ℝ → ℝ × ℝ
  | .iau2000A, jd => nut00aRaw tab.ls tab.pl jd
  | .iau2000B, jd => nut00b tab.b jd
  | .iau2006, _ => (0, 0)
  | .iau2006A, jd => nut06a tab.ls tab.pl jd

/-- era.rs 331-335 (`faf03`), with `arcsec_argument` (317-319). -/
noncomputable def faf03 (t : ℝ) : ℝ := fmod (335779.526232 + t * (1739527262.8478 + t * (-12.7512 + t * (-0.001037 + 0.00000417 * t)))) 1296000 * (Real.pi / (180 * 3600))

/-! ### The short lunar theory -/

noncomputable def toRadians (d : ℝ) : ℝ := d * (Real.pi / 180)

/-- meeus_ch47.rs 61-75, in degrees. -/
noncomputable def lp (t : ℝ) : ℝ := fmod (218.3164477 + 481267.88123421 * t - 0.0015786 * t * t + t * t * t / 538841 - t * t * t * t / 65194000) 360
noncomputable def md (t : ℝ) : ℝ := fmod (297.8501921 + 445267.1114034 * t - 0.0018819 * t * t + t * t * t / 545868 - t * t * t * t / 113065000) 360
noncomputable def ms (t : ℝ) : ℝ := fmod (357.5291092 + 35999.0502909 * t - 0.0001536 * t * t + t * t * t / 24490000) 360
noncomputable def mp (t : ℝ) : ℝ := fmod (134.9633964 + 477198.8675055 * t + 0.0087414 * t * t + t * t * t / 69699 - t * t * t * t / 14712000) 360
noncomputable def mf (t : ℝ) : ℝ := fmod (93.2720950 + 483202.0175233 * t - 0.0036539 * t * t - t * t * t / 3526000 + t * t * t * t / 863310000) 360

/-- meeus_ch47.rs 83-88. -/
noncomputable def sumL (d m p f : ℝ) : ℝ :=
  6288774 * Real.sin p + 1274027 * Real.sin (2 * d - p) + 658314 * Real.sin (2 * d) + 213618 * Real.sin (2 * p) - 185116 * Real.sin m - 114332 * Real.sin (2 * f)

/-- meeus_ch47.rs 91-94. -/
noncomputable def sumB (d p f : ℝ) : ℝ :=
  5128122 * Real.sin f + 280602 * Real.sin (p + f) + 277693 * Real.sin (p - f) + 173237 * Real.sin (2 * d - f)

/-- meeus_ch47.rs 97-100. -/
noncomputable def sumR (d p : ℝ) : ℝ :=
  -20905355 * Real.cos p - 3699111 * Real.cos (2 * d - p) - 2955968 * Real.cos (2 * d) - 569925 * Real.cos (2 * p)

/-- meeus_ch47.rs 31-42. -/
structure MoonPos where
  ra : ℝ
  dec : ℝ
  dist : ℝ
  lon : ℝ
  lat : ℝ

/-- `y.atan2(x)`. -/
noncomputable def atan2 (y x : ℝ) : ℝ := Complex.arg ⟨x, y⟩

/-- meeus_ch47.rs 109-114: right ascension and declination from longitude, latitude and obliquity. -/
noncomputable def equatorial (eps lon lat : ℝ) : ℝ × ℝ :=
  (remEuclid (atan2 (Real.sin lon * Real.cos eps - Real.tan lat * Real.sin eps) (Real.cos lon)) tau,
   Real.arcsin (max (-1) (min (Real.sin lat * Real.cos eps + Real.cos lat * Real.sin eps * Real.sin lon) 1)))

/-- meeus_ch47.rs 57-123; `obl` is the mean obliquity (precession.rs). -/
noncomputable def moon (obl : ℝ → ℝ) (jd : ℝ) : MoonPos :=
  let t := (jd - 2451545) / 36525
  let d := toRadians (md t)
  let m := toRadians (ms t)
  let p := toRadians (mp t)
  let f := toRadians (mf t)
  let lon := remEuclid (toRadians (lp t + sumL d m p f / 1000000)) tau
  let lat := toRadians (sumB d p f / 1000000)
  let q := equatorial (obl jd) lon lat
  ⟨q.1, q.2, 385000.56 + sumR d p / 1000, lon, lat⟩

end Verif.Series
