import Verif.SolarSystem.Model
import Verif.COrbit.Props
import Mathlib.Tactic.Linarith
import Mathlib.Tactic.NormNum
import Mathlib.Tactic.Positivity
import Mathlib.Tactic.FieldSimp

namespace Verif.SolarSystem.Props
open Verif.SolarSystem Verif.Ffi Verif.COrbit  Verif.Orbit
open Verif.Orbit.Spec (radians apart)

/-! ### C230: the planets -/

/-- A line of the table of mean elements at J2000 (Standish 1992, to which src/astro/orbit.rs refers): semi-major axis,
eccentricity, inclination, node, longitude of perihelion, mean longitude; before them the mass (kg) and radius (km) of the
documentation. -/
structure Line where
  name : String
  mass : ℚ
  radius : ℚ
  a : ℚ
  e : ℚ
  i : ℚ
  node : ℚ
  perihelion : ℚ
  longitude : ℚ

def published : List Line := [
  ⟨"mercury", 3.3011e23, 2439.7, 0.38709893, 0.20563069, 7.00487, 48.33167, 77.45645, 252.25084⟩,
  ⟨"venus", 4.8675e24, 6051.8, 0.72333199, 0.00677323, 3.39471, 76.68069, 131.53298, 181.97973⟩,
  ⟨"earth", 5.97237e24, 6371.0, 1.00000011, 0.01671022, 0.00005, -11.26064, 102.94719, 100.46435⟩,
  ⟨"mars", 6.4171e23, 3389.5, 1.52366231, 0.09341233, 1.85061, 49.57854, 336.04084, 355.45332⟩,
  ⟨"jupiter", 1.8982e27, 69911.0, 5.20336301, 0.04839266, 1.30530, 100.55615, 14.75385, 34.40438⟩,
  ⟨"saturn", 5.6834e26, 58232.0, 9.53707032, 0.05415060, 2.48446, 113.71504, 92.43194, 49.94432⟩,
  ⟨"uranus", 8.6810e25, 25362.0, 19.19126393, 0.04716771, 0.76986, 74.22988, 170.96424, 313.23218⟩,
  ⟨"neptune", 1.02409e26, 24622.0, 30.06896348, 0.00858587, 1.76917, 131.72169, 44.97135, 304.88003⟩]

/-- The two are the same angle, in degrees. -/
def SameAngle (x y : ℚ) : Prop := ∃ k : ℤ, x = y + 360 * k

/-- A planet is as the line says. -/
structure Matches (l : Line) (p : Planet) : Prop where
  mass : p.mass = l.mass
  radius : p.radius = l.radius
  a : p.orbit.a = l.a
  e : p.orbit.e = l.e
  i : p.orbit.i = l.i
  node : p.orbit.node = l.node
  peri : SameAngle (p.orbit.node + p.orbit.peri) l.perihelion
  anomaly : SameAngle (p.orbit.node + p.orbit.peri + p.orbit.anomaly) l.longitude
  epoch : p.orbit.epoch = 2451545

/-- The constant of a name. -/
def constant : String → Option Planet
  | "mercury" => some mercury
  | "venus" => some venus
  | "earth" => some earth
  | "mars" => some mars
  | "jupiter" => some jupiter
  | "saturn" => some saturn
  | "uranus" => some uranus
  | "neptune" => some neptune
  | _ => none

/-- C230: every planet is as published: its argument of perihelion and its mean anomaly are those that follow from the
longitudes of the table. -/
theorem planets_published (l : Line) (h : l ∈ published) : ∃ p ∈ planets, constant l.name = some p ∧ Matches l p := by
  simp only [published, List.mem_cons, List.not_mem_nil, or_false] at h
  rcases h with rfl | rfl | rfl | rfl | rfl | rfl | rfl | rfl
  · exact ⟨mercury, by decide +kernel, rfl, rfl, rfl, rfl, rfl, rfl, rfl, ⟨0, by norm_num [mercury]⟩, ⟨0, by norm_num [mercury]⟩, rfl⟩
  · exact ⟨venus, by decide +kernel, rfl, rfl, rfl, rfl, rfl, rfl, rfl, ⟨0, by norm_num [venus]⟩, ⟨0, by norm_num [venus]⟩, rfl⟩
  · exact ⟨earth, by decide +kernel, rfl, rfl, rfl, rfl, rfl, rfl, rfl, ⟨0, by norm_num [earth]⟩, ⟨1, by norm_num [earth]⟩, rfl⟩
  · exact ⟨mars, by decide +kernel, rfl, rfl, rfl, rfl, rfl, rfl, rfl, ⟨0, by norm_num [mars]⟩, ⟨0, by norm_num [mars]⟩, rfl⟩
  · exact ⟨jupiter, by decide +kernel, rfl, rfl, rfl, rfl, rfl, rfl, rfl, ⟨1, by norm_num [jupiter]⟩, ⟨1, by norm_num [jupiter]⟩, rfl⟩
  · exact ⟨saturn, by decide +kernel, rfl, rfl, rfl, rfl, rfl, rfl, rfl, ⟨1, by norm_num [saturn]⟩, ⟨2, by norm_num [saturn]⟩, rfl⟩
  · exact ⟨uranus, by decide +kernel, rfl, rfl, rfl, rfl, rfl, rfl, rfl, ⟨0, by norm_num [uranus]⟩, ⟨0, by norm_num [uranus]⟩, rfl⟩
  · exact ⟨neptune, by decide +kernel, rfl, rfl, rfl, rfl, rfl, rfl, rfl, ⟨1, by norm_num [neptune]⟩, ⟨1, by norm_num [neptune]⟩, rfl⟩

/-- All the orbits that are tabulated. -/
def allOrbits : List Elements :=
  (planets ++ dwarfPlanets).map (·.orbit) ++ majorMoons.map (·.orbit) ++ [halley, encke, haleBopp] ++
    [ceresAst.1, bennu.1, apophis.1]

/-- C230: every tabulated orbit is an ellipse with an inclination from 0 to 180 degrees, dated J2000; every albedo is from 0
to 1, every mass and radius positive. -/
theorem well_formed :
    (∀ o ∈ allOrbits, 0 < o.a ∧ 0 ≤ o.e ∧ o.e < 1 ∧ 0 ≤ o.i ∧ o.i ≤ 180 ∧ o.epoch = 2451545) ∧
      (∀ p ∈ planets ++ dwarfPlanets, 0 < p.mass ∧ 0 < p.radius ∧ ∃ b, p.albedo = some b ∧ 0 ≤ b ∧ b ≤ 1) ∧
      (∀ m ∈ majorMoons, 0 < m.mass ∧ 0 < m.radius ∧ ∃ b, m.albedo = some b ∧ 0 ≤ b ∧ b ≤ 1) := by
  refine ⟨by decide +kernel, ?_, ?_⟩
  · have h : ∀ p ∈ planets ++ dwarfPlanets, 0 < p.mass ∧ 0 < p.radius ∧
        (match p.albedo with | some b => 0 ≤ b ∧ b ≤ 1 | none => False) := by
      intro p hp
      have : ((planets ++ dwarfPlanets).all fun p => decide (0 < p.mass) && (decide (0 < p.radius) &&
        (match p.albedo with | some b => decide (0 ≤ b) && decide (b ≤ 1) | none => false))) = true := by decide +kernel
      have := List.all_eq_true.1 this p hp
      simp only [Bool.and_eq_true, decide_eq_true_eq] at this
      refine ⟨this.1, this.2.1, ?_⟩
      have h2 := this.2.2
      revert h2
      cases p.albedo <;> simp
    intro p hp
    obtain ⟨h1, h2, h3⟩ := h p hp
    refine ⟨h1, h2, ?_⟩
    revert h3
    cases p.albedo <;> simp
  · intro p hp
    have : (majorMoons.all fun p => decide (0 < p.mass) && (decide (0 < p.radius) &&
      (match p.albedo with | some b => decide (0 ≤ b) && decide (b ≤ 1) | none => false))) = true := by decide +kernel
    have := List.all_eq_true.1 this p hp
    simp only [Bool.and_eq_true, decide_eq_true_eq] at this
    refine ⟨this.1, this.2.1, ?_⟩
    have h2 := this.2.2
    revert h2
    cases p.albedo <;> simp

/-- C230: the planets are listed from the Sun outwards, and their orbits do not reach into each other: the aphelion of each is
within the perihelion of all that follow. -/
theorem orbits_nested : planets.Pairwise fun p q => p.orbit.a * (1 + p.orbit.e) < q.orbit.a * (1 - q.orbit.e) := by
  decide +kernel

/-- C230: what the documentation says in words: Jupiter is the largest planet, Ganymede the largest of the moons, Triton the
one that goes round backwards, Eris more massive than Pluto, and Ceres is the same body in both tables. -/
theorem prose :
    (∀ p ∈ planets ++ dwarfPlanets, p ≠ jupiter → p.mass < jupiter.mass ∧ p.radius < jupiter.radius) ∧
      (∀ m ∈ majorMoons, m ≠ ganymede → m.radius < ganymede.radius) ∧
      (∀ m ∈ majorMoons, 90 < m.orbit.i ↔ m = triton) ∧ pluto.mass < eris.mass ∧
      ceres.orbit = ceresAst.1 ∧ ceres.albedo = some ceresAst.2 := by decide +kernel

/-- C230: the function of the C interface named after a planet writes that planet, and only through a pointer that is not
null; the orbit it writes is accepted by `siderust_prepared_orbit_create`, and the handle then answers for every date, in AU
around the Sun, with a position on the Newtonian orbit of the published elements, up to what the solver leaves. -/
theorem planet_from_c {s : Solver} {τ : ℝ} (hs : s.Elliptic τ) (l : Line) (hl : l ∈ published) :
    ∃ f c p, planetC l.name = some f ∧ f false = (.nullPointer, none) ∧ f true = (.ok, some c) ∧ Matches l p ∧
      c.mass = l.mass ∧ c.radius = l.radius ∧
      Holds c.orbit l.a l.e l.i l.node p.orbit.peri p.orbit.anomaly 2451545 ∧
      ∃ r pos vel, preparedCreate c.orbit true = .ok r ∧
        Spec.Orbit ((2 * Real.pi / 365.256898326) ^ 2) (l.a * (1 - l.e)) l.e (radians l.i) (radians l.node)
          (radians p.orbit.peri)
          (periapsisTime ((2 * Real.pi / 365.256898326) ^ 2) l.a (radians p.orbit.anomaly) 2451545) pos vel ∧
        ∀ jd, ∃ v, preparedPositionC s (some r) (some jd) true = (.ok, some ⟨v, .helio⟩) ∧
          apart v (pos jd) ≤ l.a * (τ / (1 - l.e)) := by
  obtain ⟨p, hp, hc, m⟩ := planets_published l hl
  have hf : planetC l.name = some (planetOut p) := by
    simp only [published, List.mem_cons, List.not_mem_nil, or_false] at hl
    rcases hl with rfl | rfl | rfl | rfl | rfl | rfl | rfl | rfl <;> (injection hc with hc; subst hc; rfl)
  have hw := well_formed.1 p.orbit (by
    simp only [allOrbits, List.mem_append, List.mem_map]
    exact Or.inl (Or.inl (Or.inl ⟨p, Or.inl hp, rfl⟩)))
  have hh : Holds (orbitC p.orbit) l.a l.e l.i l.node p.orbit.peri p.orbit.anomaly 2451545 := by
    unfold Holds orbitC
    rw [m.a, m.e, m.i, m.node, m.epoch]
    norm_num
  refine ⟨planetOut p, ⟨p.mass, p.radius, orbitC p.orbit⟩, p, hf, rfl, rfl, m, by rw [m.mass], by rw [m.radius], hh, ?_⟩
  rw [m.a, m.e] at hw
  exact prepared_orbit hs hh (by exact_mod_cast hw.1) (by exact_mod_cast hw.2.1) (by exact_mod_cast hw.2.2.1)

/-- C230: the period of an orbit around the Sun obeys Kepler's third law: its square, in Gaussian years, is the cube of the
semi-major axis. -/
theorem third_law (o : Elements) (h : 0 ≤ o.a) : (period o / (365.256898326 * 86400)) ^ 2 = (o.a : ℝ) ^ 3 := by
  have h' : (0 : ℝ) ≤ o.a := by exact_mod_cast h
  unfold period periodDays gaussianYear
  have e : (o.a : ℝ) * Real.sqrt o.a * 365.256898326 * 86400 / (365.256898326 * 86400) = o.a * Real.sqrt o.a := by
    field_simp
  rw [e, mul_pow, Real.sq_sqrt h']; ring

/-! ### C231: moons, Lagrange points, comets and the Sun as a star -/

/-- One astronomical unit in kilometres. -/
def au : ℚ := 149597870.7

/-- C231 (finding): the semi-major axis of the Moon, documented as 0.00257 AU, is a thousand times smaller: the whole orbit
lies inside the Earth. -/
theorem moon_inside_earth :
    moon.orbit.a * (1 + moon.orbit.e) * au < earth.radius ∧ |moon.orbit.a * 1000 - 0.00257| < 0.00001 := by
  constructor
  · norm_num [moon, earth, au]
  · rw [abs_lt]; norm_num [moon]

/-- C231 (finding): Io's semi-major axis is more than 600 km off the 421 700 km written beside it. -/
theorem io_axis : 421700 + 600 < io.orbit.a * au := by norm_num [io, au]

/-- The planet a moon goes round. -/
def primary : List (Satellite × Planet) :=
  [(moon, earth), (io, jupiter), (europa, jupiter), (ganymede, jupiter), (callisto, jupiter), (titan, saturn),
   (triton, neptune)]

/-- C231 (finding): `period` takes every orbit for one around the Sun (of 1.9885e30 kg), also the planet-centric ones of the
moons. A revolution around the planet, by the third law with the mass of the planet, takes more than thirty times as long. -/
theorem moon_periods (q : Satellite × Planet) (hq : q ∈ primary) (T : ℝ) (hT : 0 ≤ T)
    (law : T ^ 2 * q.2.mass = (365.256898326 * 86400) ^ 2 * (q.1.orbit.a : ℝ) ^ 3 * 1.9885e30) :
    30 * period q.1.orbit < T := by
  have hm : ∀ q ∈ primary, 0 < q.1.orbit.a ∧ 0 < q.2.mass ∧ 900 * q.2.mass < 1.9885e30 := by decide +kernel
  obtain ⟨ha, hp, hlt⟩ := hm q hq
  have h3 := third_law q.1.orbit ha.le
  have ha' : (0 : ℝ) < q.1.orbit.a := by exact_mod_cast ha
  have hp' : (0 : ℝ) < q.2.mass := by exact_mod_cast hp
  have hlt' : (900 : ℝ) * q.2.mass < 1.9885e30 := by
    have : ((900 * q.2.mass : ℚ) : ℝ) < ((1.9885e30 : ℚ) : ℝ) := by exact_mod_cast hlt
    push_cast at this
    norm_num at this ⊢
    exact this
  have hsq : (period q.1.orbit) ^ 2 = (365.256898326 * 86400) ^ 2 * (q.1.orbit.a : ℝ) ^ 3 := by
    rw [div_pow, div_eq_iff (by norm_num)] at h3
    rw [h3]; ring
  rw [← hsq] at law
  have hpos : 0 < (period q.1.orbit) ^ 2 := by
    rw [hsq]; positivity
  by_contra hc
  have hle : T ≤ 30 * period q.1.orbit := not_lt.1 hc
  have h2 : T ^ 2 ≤ 900 * (period q.1.orbit) ^ 2 := by
    have := mul_self_le_mul_self hT hle
    nlinarith
  have h4 : T ^ 2 * q.2.mass ≤ (period q.1.orbit) ^ 2 * (900 * q.2.mass) := by
    have := mul_le_mul_of_nonneg_right h2 hp'.le
    linarith
  have h5 := mul_lt_mul_of_pos_left hlt' hpos
  linarith

/-- The point of a latitude, longitude (degrees) and distance. -/
noncomputable def point (p : Place) : EuclideanSpace ℝ (Fin 3) :=
  !₂[p.dist * (Real.cos (p.lat * (Real.pi / 180)) * Real.cos (p.lon * (Real.pi / 180))),
     p.dist * (Real.cos (p.lat * (Real.pi / 180)) * Real.sin (p.lon * (Real.pi / 180))),
     p.dist * Real.sin (p.lat * (Real.pi / 180))]

/-- C231 (finding): the two Lagrange points, described as 0.01 AU before and behind the Earth on the line from the Sun, are two
AU apart, on either side of the Sun: wherever the Earth is, one of them is at least an AU away. -/
theorem lagrange_apart :
    dist (point sunEarthL1) (point sunEarthL2) = 2 ∧
      ∀ e : EuclideanSpace ℝ (Fin 3), 1 ≤ dist e (point sunEarthL1) ∨ 1 ≤ dist e (point sunEarthL2) := by
  have h1 : point sunEarthL1 = !₂[0.99, 0, 0] := by
    simp [point, sunEarthL1]
  have h2 : point sunEarthL2 = !₂[-1.01, 0, 0] := by
    have : (180 : ℝ) * (Real.pi / 180) = Real.pi := by ring
    simp [point, sunEarthL2, this]
  have hd : dist (point sunEarthL1) (point sunEarthL2) = 2 := by
    rw [h1, h2, EuclideanSpace.dist_eq, Fin.sum_univ_three]
    simp only [Real.dist_eq]
    rw [show (2 : ℝ) = Real.sqrt 4 by rw [show (4 : ℝ) = 2 ^ 2 by norm_num, Real.sqrt_sq (by norm_num)]]
    congr 1
    simp
    norm_num
  refine ⟨hd, fun e => ?_⟩
  by_contra hc
  obtain ⟨ha, hb⟩ := not_or.1 hc
  have := dist_triangle_left (point sunEarthL1) (point sunEarthL2) e
  rw [hd] at this
  linarith [not_le.1 ha, not_le.1 hb]

/-- The mean anomaly of an orbit around the Sun at a date, in degrees from the perihelion passage next to the epoch. -/
noncomputable def anomalyAt (o : Elements) (jd : ℝ) : ℝ := o.anomaly + 360 * ((jd - o.epoch) / periodDays o.a)

theorem period_bounds {a lo hi : ℝ} (h1 : lo ^ 2 ≤ a) (h2 : a ≤ hi ^ 2) (hh : 0 ≤ hi) (ha : 0 ≤ a) :
    a * lo * 365.256898326 ≤ periodDays a ∧ periodDays a ≤ a * hi * 365.256898326 := by
  unfold periodDays gaussianYear
  have l : lo ≤ Real.sqrt a := Real.le_sqrt_of_sq_le h1
  have u : Real.sqrt a ≤ hi := (Real.sqrt_le_left hh).2 h2
  constructor
  · have := mul_le_mul_of_nonneg_left l ha; linarith
  · have := mul_le_mul_of_nonneg_left u ha; linarith

/-- C231 (finding): Hale-Bopp, "great comet of 1997", has no perihelion passage in two centuries before J2000 nor in four
thousand years after: its mean anomaly stays strictly between 0 and 360 degrees. -/
theorem hale_bopp (jd : ℝ) (h0 : 2451545 - 200 * 365.25 ≤ jd) (h1 : jd ≤ 2451545 + 4000 * 365.25) :
    0 < anomalyAt haleBopp jd ∧ anomalyAt haleBopp jd < 360 := by
  have hb := period_bounds (a := ((286.538 : ℚ) : ℝ)) (lo := 16.92) (hi := 16.93) (by norm_num) (by norm_num)
    (by norm_num) (by norm_num)
  have e : anomalyAt haleBopp jd = 17.258 + 360 * ((jd - 2451545) / periodDays ((286.538 : ℚ) : ℝ)) := by
    simp [anomalyAt, haleBopp]
  rw [e]
  have hp : 0 < periodDays ((286.538 : ℚ) : ℝ) := lt_of_lt_of_le (by norm_num) hb.1
  have hp' := hb.1
  norm_num at hp'
  constructor
  · have : -(17.258 / 360) < (jd - 2451545) / periodDays ((286.538 : ℚ) : ℝ) := by
      rw [lt_div_iff₀ hp]; norm_num at h0 ⊢; linarith
    linarith
  · have : (jd - 2451545) / periodDays ((286.538 : ℚ) : ℝ) < 342.742 / 360 := by
      rw [div_lt_iff₀ hp]; norm_num at h1 ⊢; linarith
    linarith

/-- C231 (finding): on the day of Halley's perihelion passage of 9 February 1986 (JD 2446471) the mean anomaly of the
tabulated orbit is still 27 degrees short of it, more than five years: the anomaly is not that of the epoch given. -/
theorem halley_1986 : anomalyAt halley 2446471 < -27 := by
  have hb := period_bounds (a := ((17.834144 : ℚ) : ℝ)) (lo := 4.223) (hi := 4.2231) (by norm_num) (by norm_num)
    (by norm_num) (by norm_num)
  have e : anomalyAt halley 2446471 = 38.384 + 360 * ((2446471 - 2451545) / periodDays ((17.834144 : ℚ) : ℝ)) := by
    simp [anomalyAt, halley]
  rw [e]
  have hp : 0 < periodDays ((17.834144 : ℚ) : ℝ) := lt_of_lt_of_le (by norm_num) hb.1
  have hp' := hb.2
  norm_num at hp'
  have : (2446471 - 2451545 : ℝ) / periodDays ((17.834144 : ℚ) : ℝ) < -(65.384 / 360) := by
    rw [div_lt_iff₀ hp]; norm_num; linarith
  linarith

/-- C231: Halley's period is as documented, within two years of 75. -/
theorem halley_period : |periodYears halley - 75| < 2 := by
  have l : (4.22 : ℝ) ≤ Real.sqrt ((17.834144 : ℚ) : ℝ) := Real.le_sqrt_of_sq_le (by norm_num)
  have u : Real.sqrt ((17.834144 : ℚ) : ℝ) ≤ 4.23 := (Real.sqrt_le_left (by norm_num)).2 (by norm_num)
  have e : periodYears halley = 17.834144 * Real.sqrt ((17.834144 : ℚ) : ℝ) := by simp [periodYears, halley]
  rw [e, abs_lt]
  constructor <;> norm_num at l u ⊢ <;> linarith

/-- C231 (finding): the declination of the Sun as a star is built from hours instead of degrees: -345 degrees, which is no
declination and, as an angle, north of the equator, where the documentation has -23 degrees. The right ascension is the documented
one. -/
theorem sun_declination :
    sunRa = 281.2 ∧ sunDec = -345 ∧ ¬ (-90 ≤ sunDec ∧ sunDec ≤ 90) ∧ 0 < Real.sin ((sunDec : ℝ) * (Real.pi / 180)) := by
  have hd : sunDec = -345 := by norm_num [sunDec, hmsDegrees]
  refine ⟨by norm_num [sunRa, hmsDegrees], hd, by rw [hd]; norm_num, ?_⟩
  rw [hd]
  have : ((-345 : ℚ) : ℝ) * (Real.pi / 180) = Real.pi / 12 - 2 * Real.pi := by push_cast; ring
  rw [this, Real.sin_sub_two_pi]
  exact Real.sin_pos_of_pos_of_lt_pi (by positivity) (by linarith [Real.pi_pos])

end Verif.SolarSystem.Props
