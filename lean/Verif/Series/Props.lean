import Verif.Series.Nutation

/-!
Claim C150: the short lunar theory.
-/
namespace Verif.Series.Props
open Verif.Series

/-! ### Specification -/

/-- A polynomial of degree four in degrees, as an angle. -/
noncomputable def degPoly (c0 c1 c2 c3 c4 t : ℝ) : ℝ := (c0 + c1 * t + c2 * t ^ 2 + c3 * t ^ 3 + c4 * t ^ 4) * (Real.pi / 180)

/-- The mean longitude of the Moon, its elongation, the anomalies of the Sun and the Moon, the argument of latitude: not reduced. -/
noncomputable def meanLon (t : ℝ) : ℝ := degPoly 218.3164477 481267.88123421 (-0.0015786) (1 / 538841) (-(1 / 65194000)) t
noncomputable def elongation (t : ℝ) : ℝ := degPoly 297.8501921 445267.1114034 (-0.0018819) (1 / 545868) (-(1 / 113065000)) t
noncomputable def sunAnomaly (t : ℝ) : ℝ := degPoly 357.5291092 35999.0502909 (-0.0001536) (1 / 24490000) 0 t
noncomputable def moonAnomaly (t : ℝ) : ℝ := degPoly 134.9633964 477198.8675055 0.0087414 (1 / 69699) (-(1 / 14712000)) t
noncomputable def latArgument (t : ℝ) : ℝ := degPoly 93.2720950 483202.0175233 (-0.0036539) (-(1 / 3526000)) (1 / 863310000) t

/-- A degree. -/
noncomputable def deg : ℝ := Real.pi / 180

theorem fmod_deg (x y : ℝ) (h : x = y) : Turn (toRadians (fmod x 360)) (y * (Real.pi / 180)) :=
  ⟨-trunc (x / 360), by subst h; unfold toRadians fmod; push_cast; ring⟩

theorem lp_turn (t : ℝ) : Turn (toRadians (lp t)) (meanLon t) := by unfold lp meanLon degPoly; exact fmod_deg _ _ (by ring)
theorem md_turn (t : ℝ) : Turn (toRadians (md t)) (elongation t) := by unfold md elongation degPoly; exact fmod_deg _ _ (by ring)
theorem ms_turn (t : ℝ) : Turn (toRadians (ms t)) (sunAnomaly t) := by unfold ms sunAnomaly degPoly; exact fmod_deg _ _ (by ring)
theorem mp_turn (t : ℝ) : Turn (toRadians (mp t)) (moonAnomaly t) := by unfold mp moonAnomaly degPoly; exact fmod_deg _ _ (by ring)
theorem mf_turn (t : ℝ) : Turn (toRadians (mf t)) (latArgument t) := by unfold mf latArgument degPoly; exact fmod_deg _ _ (by ring)

theorem Turn.two {a b : ℝ} (h : Turn a b) : Turn (2 * a) (2 * b) := h.mul ⟨2, by norm_num⟩

theorem Turn.sub {a b c d : ℝ} (h : Turn a b) (h' : Turn c d) : Turn (a - c) (b - d) := by
  obtain ⟨k, rfl⟩ := h
  obtain ⟨l, rfl⟩ := h'
  exact ⟨k - l, by push_cast; ring⟩

theorem remEuclid_turn (x : ℝ) : Turn (remEuclid x tau) x ∧ 0 ≤ remEuclid x tau ∧ remEuclid x tau < 2 * Real.pi := by
  have hp : 0 < tau := by unfold tau; have := Real.pi_pos; positivity
  refine ⟨⟨-⌊x / tau⌋, by unfold remEuclid tau; push_cast; ring⟩, ?_, ?_⟩
  · unfold remEuclid
    have := Int.floor_le (x / tau)
    rw [le_div_iff₀ hp] at this
    linarith
  · unfold remEuclid
    have := Int.lt_floor_add_one (x / tau)
    rw [div_lt_iff₀ hp] at this
    change x - tau * ↑⌊x / tau⌋ < tau
    linarith

/-- C150. The longitude is the mean longitude plus six terms, the latitude has four terms and the distance five, all with the arguments as they are. -/
theorem moon_series (obl : ℝ → ℝ) (jd : ℝ) {t D M P F : ℝ} (ht : t = (jd - 2451545) / 36525) (hD : D = elongation t) (hM : M = sunAnomaly t) (hP : P = moonAnomaly t)
    (hF : F = latArgument t) :
    Turn (moon obl jd).lon (meanLon t + (6.288774 * Real.sin P + 1.274027 * Real.sin (2 * D - P) + 0.658314 * Real.sin (2 * D) + 0.213618 * Real.sin (2 * P) -
      0.185116 * Real.sin M - 0.114332 * Real.sin (2 * F)) * deg) ∧
    (moon obl jd).lat = (5.128122 * Real.sin F + 0.280602 * Real.sin (P + F) + 0.277693 * Real.sin (P - F) + 0.173237 * Real.sin (2 * D - F)) * deg ∧
    (moon obl jd).dist = 385000.56 - 20905.355 * Real.cos P - 3699.111 * Real.cos (2 * D - P) - 2955.968 * Real.cos (2 * D) - 569.925 * Real.cos (2 * P) := by
  subst hD hM hP hF
  unfold moon
  dsimp only
  rw [← ht]
  have d := md_turn t
  have m := ms_turn t
  have p := mp_turn t
  have f := mf_turn t
  refine ⟨?_, ?_, ?_⟩
  · refine (remEuclid_turn _).1.trans ?_
    have e : ∀ s : ℝ, toRadians (lp t + s / 1000000) = toRadians (lp t) + s / 1000000 * deg := fun s => by unfold toRadians deg; ring
    rw [e]
    refine (lp_turn t).add ?_
    unfold sumL
    rw [p.sin, (d.two.sub p).sin, d.two.sin, p.two.sin, m.sin, f.two.sin]
    have : ∀ x y : ℝ, x = y → Turn x y := fun x y h => by rw [h]; exact Turn.refl _
    apply this
    ring
  · unfold sumB
    rw [f.sin, (p.add f).sin, (p.sub f).sin, (d.two.sub f).sin]
    unfold toRadians deg
    ring
  · unfold sumR
    rw [p.cos, (d.two.sub p).cos, d.two.cos, p.two.cos]
    ring

/-- C150. The Moon is never farther than 5.86° from the ecliptic, and between 356870 and 413131 km from the Earth; longitude and right ascension lie in [0, 2π),
the declination in [-π/2, π/2]. -/
theorem moon_ranges (obl : ℝ → ℝ) (jd : ℝ) : |(moon obl jd).lat| ≤ 5.86 * deg ∧ 356870 ≤ (moon obl jd).dist ∧ (moon obl jd).dist ≤ 413131 ∧
    0 ≤ (moon obl jd).lon ∧ (moon obl jd).lon < 2 * Real.pi ∧ 0 ≤ (moon obl jd).ra ∧ (moon obl jd).ra < 2 * Real.pi ∧
    -(Real.pi / 2) ≤ (moon obl jd).dec ∧ (moon obl jd).dec ≤ Real.pi / 2 := by
  obtain ⟨_, h2, h3⟩ := moon_series obl jd rfl rfl rfl rfl rfl
  have hdeg : 0 < deg := by unfold deg; have := Real.pi_pos; positivity
  have s : ∀ x, -1 ≤ Real.sin x ∧ Real.sin x ≤ 1 := fun x => ⟨Real.neg_one_le_sin x, Real.sin_le_one x⟩
  have c : ∀ x, -1 ≤ Real.cos x ∧ Real.cos x ≤ 1 := fun x => ⟨Real.neg_one_le_cos x, Real.cos_le_one x⟩
  refine ⟨?_, ?_, ?_, ?_, ?_, ?_, ?_, ?_, ?_⟩
  · rw [h2, abs_mul, abs_of_pos hdeg]
    apply mul_le_mul_of_nonneg_right _ hdeg.le
    rw [abs_le]
    have a1 := s (latArgument ((jd - 2451545) / 36525))
    have a2 := s (moonAnomaly ((jd - 2451545) / 36525) + latArgument ((jd - 2451545) / 36525))
    have a3 := s (moonAnomaly ((jd - 2451545) / 36525) - latArgument ((jd - 2451545) / 36525))
    have a4 := s (2 * elongation ((jd - 2451545) / 36525) - latArgument ((jd - 2451545) / 36525))
    constructor <;> linarith [a1.1, a1.2, a2.1, a2.2, a3.1, a3.2, a4.1, a4.2]
  · rw [h3]
    linarith [(c (moonAnomaly ((jd - 2451545) / 36525))).2, (c (2 * elongation ((jd - 2451545) / 36525) - moonAnomaly ((jd - 2451545) / 36525))).2,
      (c (2 * elongation ((jd - 2451545) / 36525))).2, (c (2 * moonAnomaly ((jd - 2451545) / 36525))).2]
  · rw [h3]
    linarith [(c (moonAnomaly ((jd - 2451545) / 36525))).1, (c (2 * elongation ((jd - 2451545) / 36525) - moonAnomaly ((jd - 2451545) / 36525))).1,
      (c (2 * elongation ((jd - 2451545) / 36525))).1, (c (2 * moonAnomaly ((jd - 2451545) / 36525))).1]
  · exact (remEuclid_turn _).2.1
  · exact (remEuclid_turn _).2.2
  · exact (remEuclid_turn _).2.1
  · exact (remEuclid_turn _).2.2
  · exact Real.neg_pi_div_two_le_arcsin _
  · exact Real.arcsin_le_pi_div_two _

theorem equatorial_direction {eps lon lat : ℝ} (hc : 0 < Real.cos lat) {ra dec : ℝ} (h : equatorial eps lon lat = (ra, dec)) :
    Real.cos dec * Real.cos ra = Real.cos lat * Real.cos lon ∧
    Real.cos dec * Real.sin ra = Real.cos eps * (Real.cos lat * Real.sin lon) - Real.sin eps * Real.sin lat ∧
    Real.sin dec = Real.sin eps * (Real.cos lat * Real.sin lon) + Real.cos eps * Real.sin lat := by
  unfold equatorial at h
  obtain ⟨rfl, rfl⟩ := Prod.mk.inj h
  set x := Real.cos lat * Real.cos lon with hx
  set y := Real.cos eps * (Real.cos lat * Real.sin lon) - Real.sin eps * Real.sin lat with hy
  set z := Real.sin eps * (Real.cos lat * Real.sin lon) + Real.cos eps * Real.sin lat with hz
  have hunit : x ^ 2 + y ^ 2 + z ^ 2 = 1 := by
    have e1 := Real.sin_sq_add_cos_sq eps
    have e2 := Real.sin_sq_add_cos_sq lon
    have e3 := Real.sin_sq_add_cos_sq lat
    have : x ^ 2 + y ^ 2 + z ^ 2 = Real.cos lat ^ 2 * Real.cos lon ^ 2 + (Real.sin eps ^ 2 + Real.cos eps ^ 2) * ((Real.cos lat * Real.sin lon) ^ 2 + Real.sin lat ^ 2) := by
      rw [hx, hy, hz]; ring
    rw [this, e1, one_mul]
    linear_combination Real.cos lat ^ 2 * e2 + e3
  have hzarg : Real.sin lat * Real.cos eps + Real.cos lat * Real.sin eps * Real.sin lon = z := by rw [hz]; ring
  have z1 : -1 ≤ z := by nlinarith [sq_nonneg x, sq_nonneg y]
  have z2 : z ≤ 1 := by nlinarith [sq_nonneg x, sq_nonneg y]
  rw [hzarg, min_eq_left z2, max_eq_right z1]
  have hsin : Real.sin (Real.arcsin z) = z := Real.sin_arcsin z1 z2
  have hcos : Real.cos (Real.arcsin z) = Real.sqrt (x ^ 2 + y ^ 2) := by
    rw [Real.cos_arcsin]
    congr 1
    linarith
  set w : ℂ := ⟨Real.cos lon, Real.sin lon * Real.cos eps - Real.tan lat * Real.sin eps⟩ with hw
  have ht := (remEuclid_turn (atan2 (Real.sin lon * Real.cos eps - Real.tan lat * Real.sin eps) (Real.cos lon))).1
  rw [ht.cos, ht.sin, hcos, hsin]
  have hre : Real.cos lat * w.re = x := rfl
  have him : Real.cos lat * w.im = y := by
    show Real.cos lat * (Real.sin lon * Real.cos eps - Real.tan lat * Real.sin eps) = y
    rw [Real.tan_eq_sin_div_cos, hy]
    field_simp
  have hn : Real.sqrt (x ^ 2 + y ^ 2) = Real.cos lat * ‖w‖ := by
    rw [← hre, ← him, Complex.norm_def, Complex.normSq_apply, show (Real.cos lat * w.re) ^ 2 + (Real.cos lat * w.im) ^ 2 = Real.cos lat ^ 2 * (w.re * w.re + w.im * w.im) by ring,
      Real.sqrt_mul (sq_nonneg _), Real.sqrt_sq hc.le]
  have hat : atan2 (Real.sin lon * Real.cos eps - Real.tan lat * Real.sin eps) (Real.cos lon) = Complex.arg w := rfl
  rw [hn, hat]
  refine ⟨?_, ?_, rfl⟩
  · rw [mul_assoc, Complex.norm_mul_cos_arg, hre]
  · rw [mul_assoc, Complex.norm_mul_sin_arg, him]

/-- C150. Right ascension and declination are those of the direction of the Moon, turned about the equinox by the obliquity; for all dates and obliquities. -/
theorem moon_direction (obl : ℝ → ℝ) (jd : ℝ) {m : MoonPos} (hm : m = moon obl jd) :
    Real.cos m.dec * Real.cos m.ra = Real.cos m.lat * Real.cos m.lon ∧
    Real.cos m.dec * Real.sin m.ra = Real.cos (obl jd) * (Real.cos m.lat * Real.sin m.lon) - Real.sin (obl jd) * Real.sin m.lat ∧
    Real.sin m.dec = Real.sin (obl jd) * (Real.cos m.lat * Real.sin m.lon) + Real.cos (obl jd) * Real.sin m.lat := by
  subst hm
  have hlat := (moon_ranges obl jd).1
  have hpi := Real.pi_pos
  have hc : 0 < Real.cos (moon obl jd).lat := by
    rw [abs_le] at hlat
    unfold deg at hlat
    apply Real.cos_pos_of_mem_Ioo
    constructor <;> linarith [hlat.1, hlat.2]
  exact equatorial_direction hc rfl

/-- At J2000 the longitude argument of the model is 218.3164477° plus the terms. -/
example : meanLon 0 = 218.3164477 * (Real.pi / 180) := by unfold meanLon degPoly; ring

end Verif.Series.Props
