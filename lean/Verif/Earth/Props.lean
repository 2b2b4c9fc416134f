import Verif.Earth.Angles
import Verif.Earth.Network
import Mathlib.Analysis.SpecialFunctions.Trigonometric.Bounds
import Mathlib.Analysis.Real.Pi.Bounds
import Mathlib.Analysis.SpecialFunctions.Trigonometric.Deriv
import Mathlib.Analysis.Calculus.Deriv.Prod
import Mathlib.Tactic.IntervalCases

/-!
# Pole, ecliptic, polar motion, observing sites and catalogue frames
-/

namespace Verif.Earth.Props

open Verif.Earth Verif.Earth.Spec Matrix

theorem rz_same {a b : ℝ} (h : SameAngle a b) : rz a = rz b := by
  unfold rz
  rw [sin_same h, cos_same h]

theorem same_neg {a b : ℝ} (h : SameAngle a b) : SameAngle (-a) (-b) := by
  obtain ⟨k, rfl⟩ := h
  exact ⟨-k, by push_cast; ring⟩

/-! ## Precession angles, orientation parameters and time scales -/

theorem poly_six (a b c d e f : ℚ) (t : ℝ) : poly [a, b, c, d, e, f] t
    = a + b * t + c * t ^ 2 + d * t ^ 3 + e * t ^ 4 + f * t ^ 5 := by
  simp [poly, List.range_succ, Rat.cast_def]
  ring

theorem poly_four (a b c d : ℚ) (t : ℝ) : poly [a, b, c, d] t
    = a + b * t + c * t ^ 2 + d * t ^ 3 := by
  simp [poly, List.range_succ]
  ring

/-- **C102.** The precession matrix is the product of rotations by the published
Fukushima–Williams angles, nutation added to the last two; the mean obliquity is the last of
them. -/
theorem precession_angles (jd dpsi deps : ℝ) :
    let t := (jd - 2451545) / 36525
    precessionNutation jd dpsi deps
        = rx (microarcsec (poly epsilonA t) + deps) * rz (microarcsec (poly psiBar t) + dpsi)
          * rx (-microarcsec (poly phiBar t)) * rz (-microarcsec (poly gammaBar t))
      ∧ precession jd = precessionNutation jd 0 0
      ∧ meanObliquity jd = microarcsec (poly epsilonA t) := by
  have e : ∀ x y : ℝ, x * 1000000 = y → arcsec x = microarcsec y := by
    intro x y h
    rw [← h]
    unfold arcsec microarcsec
    ring
  refine ⟨?_, ?_, ?_⟩
  · unfold precessionNutation fwAngles fwMatrix centuries
    simp only
    congr 1
    · congr 1
      · congr 1
        · congr 2
          apply e
          rw [epsilonA, poly_six]
          push_cast
          ring
        · congr 2
          apply e
          rw [psiBar, poly_six]
          push_cast
          ring
      · congr 2
        apply e
        rw [phiBar, poly_six]
        push_cast
        ring
    · congr 2
      apply e
      rw [gammaBar, poly_six]
      push_cast
      ring
  · unfold precession precessionNutation
    simp
  · unfold meanObliquity centuries
    simp only
    apply e
    rw [epsilonA, poly_six]
    push_cast
    ring

/-- **C102.** The quantity `s` is the published polynomial less half the product of the pole's
coordinates, and the observed offsets displace the pole by `dX = Δψ sin ε` and `dY = Δε`. -/
theorem pole_corrections (jd x y : ℝ) (n : Nut) (e : Eop)
    (h : (1e-15 : ℝ) < |Real.sin n.meanObliquity|) :
    cioLocator jd x y + x * y / 2 = microarcsec (poly locator ((jd - 2451545) / 36525))
      ∧ ((nutationWithOffsets n e).1 - n.dpsi) * Real.sin n.meanObliquity = microarcsec (e.dx * 1000)
      ∧ (nutationWithOffsets n e).2 - n.deps = microarcsec (e.dy * 1000) := by
  have h0 : Real.sin n.meanObliquity ≠ 0 := by
    intro hh
    rw [hh, abs_zero] at h
    norm_num at h
  have ea : ∀ x : ℝ, arcsec (x / 1000) = microarcsec (x * 1000) := by
    intro x
    unfold arcsec microarcsec
    ring
  refine ⟨?_, ?_, ?_⟩
  · unfold cioLocator centuries arcsec microarcsec
    simp only
    rw [locator, poly_four]
    push_cast
    ring
  · unfold nutationWithOffsets
    simp only [if_pos h]
    split_ifs with hc
    · rw [← ea]
      field_simp
      ring
    · have hx : arcsec (e.dx / 1000) = 0 := by
        by_contra hne
        exact hc (Or.inl hne)
      rw [← ea, hx]
      ring
  · unfold nutationWithOffsets
    simp only
    split_ifs with hc
    · rw [← ea]
      ring
    · have hy : arcsec (e.dy / 1000) = 0 := by
        by_contra hne
        exact hc (Or.inr hne)
      rw [← ea, hy]
      ring

/-- **C100.** Where the loaded bundle knows UT1−UTC, the provider's own value replaces it. -/
theorem ut1_refined (c : Ctx) (jd utc d : ℝ) (e : Eop)
    (hb : c.bundledDut1 (c.ut1FromTt jd - 2400000.5) = some d)
    (hu : c.ut1FromTt jd = utc + d / 86400) : c.ut1 jd e = utc + e.dut1 / 86400 := by
  unfold Ctx.ut1
  simp only
  rw [hb, hu]
  simp only [Option.getD_some]
  ring

/-- **C100, finding.** Where it does not, the converted date already is UT1 and the provider's
UT1−UTC is added to it a second time. -/
theorem ut1_counted_twice (c : Ctx) (jd utc : ℝ) (e : Eop)
    (hb : c.bundledDut1 (c.ut1FromTt jd - 2400000.5) = none)
    (hu : c.ut1FromTt jd = utc + e.dut1 / 86400) :
    c.ut1 jd e = utc + 2 * (e.dut1 / 86400)
      ∧ (c.ut1 jd e = utc + e.dut1 / 86400 ↔ e.dut1 = 0) := by
  have : c.ut1 jd e = utc + 2 * (e.dut1 / 86400) := by
    unfold Ctx.ut1
    simp only
    rw [hb, hu]
    simp only [Option.getD_none]
    ring
  refine ⟨this, ?_⟩
  rw [this]
  constructor <;> intro h <;> linarith

theorem rounds_close {table : ℝ → Option ℝ} {f : ℝ → ℝ} {L ut1 utc : ℝ}
    (hL : 0 ≤ L)
    (hf : ∀ x v, table x = some v → v = f x)
    (hl : ∀ x y, |f x - f y| ≤ L * |x - y|)
    (hu : utc + f (utc - 2400000.5) / 86400 = ut1) :
    ∀ n x r, utcRounds table ut1 n x = some r → |r - utc| ≤ (L / 86400) ^ n * |x - utc| := by
  intro n
  induction n with
  | zero =>
    intro x r h
    simp only [utcRounds, Option.some.injEq] at h
    rw [h]
    simp
  | succ n ih =>
    intro x r h
    unfold utcRounds at h
    cases ht : table (x - 2400000.5) with
    | none => rw [ht] at h; cases h
    | some d =>
      rw [ht] at h
      have hd := hf _ _ ht
      have := ih _ _ h
      have e : ut1 - d / 86400 - utc = (f (utc - 2400000.5) - f (x - 2400000.5)) / 86400 := by
        rw [hd, ← hu]
        ring
      rw [e, abs_div, abs_of_pos (by norm_num : (0 : ℝ) < 86400)] at this
      have hb := hl (utc - 2400000.5) (x - 2400000.5)
      have ex : |utc - 2400000.5 - (x - 2400000.5)| = |x - utc| := by
        rw [abs_sub_comm x utc]
        congr 1
        ring
      rw [ex] at hb
      calc |r - utc| ≤ (L / 86400) ^ n * (|f (utc - 2400000.5) - f (x - 2400000.5)| / 86400) := this
        _ ≤ (L / 86400) ^ n * (L * |x - utc| / 86400) := by gcongr
        _ = _ := by rw [pow_succ]; ring

/-- **C100.** The UTC found by iteration is within `(L/86400)³ · |UT1 − UTC|` of the true one, for a
bundle whose UT1−UTC changes by at most `L` seconds a day, and it fails only where the bundle has
no entry. -/
theorem utc_accurate {table : ℝ → Option ℝ} {f : ℝ → ℝ} {L ut1 utc : ℝ} (hL : 0 ≤ L)
    (hf : ∀ x v, table x = some v → v = f x)
    (hl : ∀ x y, |f x - f y| ≤ L * |x - y|)
    (hu : utc + f (utc - 2400000.5) / 86400 = ut1) :
    (∀ r, tryUtc table ut1 = some r → |r - utc| ≤ (L / 86400) ^ 3 * |ut1 - utc|)
      ∧ (tryUtc table ut1 = none → ∃ x, table x = none) := by
  refine ⟨fun r hr => rounds_close hL hf hl hu 3 ut1 r hr, ?_⟩
  have : ∀ n x, utcRounds table ut1 n x = none → ∃ x, table x = none := by
    intro n
    induction n with
    | zero => intro x h; cases h
    | succ n ih =>
      intro x h
      unfold utcRounds at h
      cases ht : table (x - 2400000.5) with
      | none => exact ⟨_, ht⟩
      | some d => rw [ht] at h; exact ih _ h
  exact this 3 ut1

/-- A bundle with a constant drift of one millisecond a day. -/
example : ∀ x y : ℝ, |(0.001 * x - 0.001 * y : ℝ)| ≤ 0.001 * |x - y| := by
  intro x y
  rw [← mul_sub, abs_mul, abs_of_pos (by norm_num : (0 : ℝ) < 0.001)]

/-! ## The celestial intermediate pole -/

theorem mulVec_pole (m : M3) : m.mulVec pole = fun i => m i 2 := by
  ext i
  simp [Matrix.mulVec, dotProduct, Fin.sum_univ_three, pole]

theorem row_unit {m : M3} (h : Proper m) : m 2 0 ^ 2 + m 2 1 ^ 2 + m 2 2 ^ 2 = 1 := by
  have := congrFun (congrFun (proper_right h) 2) 2
  simp [Matrix.mul_apply, Fin.sum_univ_three] at this
  nlinarith

/-- **C102.** The coordinates `X`, `Y` are those of the pole of the true equator of date: the
precession-nutation matrix takes the unit vector `(X, Y, Z)` to the third axis. -/
theorem intermediate_pole (jd dpsi deps : ℝ) :
    ∃ z, (cipXy jd dpsi deps).1 ^ 2 + (cipXy jd dpsi deps).2 ^ 2 + z ^ 2 = 1
      ∧ (precessionNutation jd dpsi deps).mulVec
          ![(cipXy jd dpsi deps).1, (cipXy jd dpsi deps).2, z] = pole := by
  set m := precessionNutation jd dpsi deps with hm
  have hp : Proper m := proper_npb _ _ _
  refine ⟨m 2 2, row_unit hp, ?_⟩
  have e : (![(cipXy jd dpsi deps).1, (cipXy jd dpsi deps).2, m 2 2] : Fin 3 → ℝ)
      = mᵀ.mulVec pole := by
    rw [mulVec_pole]
    ext i
    fin_cases i <;> simp [cipXy, ← hm]
  rw [e, Matrix.mulVec_mulVec, proper_right hp, Matrix.one_mulVec]

theorem atan2_sin_cos {x y r : ℝ} (hr : 0 < r) (h : x ^ 2 + y ^ 2 = r ^ 2) :
    Real.cos (atan2 y x) = x / r ∧ Real.sin (atan2 y x) = y / r := by
  have hn : ‖(⟨x, y⟩ : ℂ)‖ = r := by
    rw [Complex.norm_def, Complex.normSq_mk, show x * x + y * y = r ^ 2 by nlinarith,
      Real.sqrt_sq hr.le]
  have h0 : (⟨x, y⟩ : ℂ) ≠ 0 := by
    intro hc
    rw [hc, norm_zero] at hn
    exact hr.ne hn
  unfold atan2
  rw [Complex.cos_arg h0, Complex.sin_arg, hn]
  exact ⟨rfl, rfl⟩

/-- The polar angles of the pole. -/
theorem pole_angles {x y : ℝ} (h : x * x + y * y ≤ 1) :
    Real.sin (atan2 (Real.sqrt (x * x + y * y)) (Real.sqrt (max (1 - (x * x + y * y)) 0)))
        * Real.cos (atan2 y x) = x
      ∧ Real.sin (atan2 (Real.sqrt (x * x + y * y)) (Real.sqrt (max (1 - (x * x + y * y)) 0)))
        * Real.sin (atan2 y x) = y
      ∧ Real.cos (atan2 (Real.sqrt (x * x + y * y)) (Real.sqrt (max (1 - (x * x + y * y)) 0)))
        = Real.sqrt (1 - (x * x + y * y)) := by
  have hr : 0 ≤ x * x + y * y := add_nonneg (mul_self_nonneg x) (mul_self_nonneg y)
  have hm : max (1 - (x * x + y * y)) 0 = 1 - (x * x + y * y) := max_eq_left (by linarith)
  rw [hm]
  have hu : Real.sqrt (1 - (x * x + y * y)) ^ 2 + Real.sqrt (x * x + y * y) ^ 2 = 1 ^ 2 := by
    rw [Real.sq_sqrt (by linarith), Real.sq_sqrt hr]
    ring
  obtain ⟨hc, hs⟩ := atan2_sin_cos one_pos hu
  rw [hc, hs, div_one, div_one]
  refine ⟨?_, ?_, rfl⟩
  · rcases hr.eq_or_lt with h0 | h0
    · have hx : x = 0 := by nlinarith [mul_self_nonneg x, mul_self_nonneg y]
      rw [← h0, hx]
      simp
    · have hq : 0 < Real.sqrt (x * x + y * y) := Real.sqrt_pos.mpr h0
      have g := atan2_sin_cos (x := x) (y := y) hq (by rw [Real.sq_sqrt hr]; ring)
      rw [g.1, mul_div_cancel₀ _ hq.ne']
  · rcases hr.eq_or_lt with h0 | h0
    · have hy : y = 0 := by nlinarith [mul_self_nonneg x, mul_self_nonneg y]
      rw [← h0, hy]
      simp
    · have hq : 0 < Real.sqrt (x * x + y * y) := Real.sqrt_pos.mpr h0
      have g := atan2_sin_cos (x := x) (y := y) hq (by rw [Real.sq_sqrt hr]; ring)
      rw [g.2, mul_div_cancel₀ _ hq.ne']

/-- **C102.** The intermediate matrix is a proper rotation for all arguments, and its third row is
`(−X, −Y, √(1 − X² − Y²))`. -/
theorem intermediate_matrix (x y s : ℝ) :
    Proper (cirsMatrix x y s)
      ∧ (x * x + y * y ≤ 1 → cirsMatrix x y s 2 = ![-x, -y, Real.sqrt (1 - (x * x + y * y))]) := by
  refine ⟨proper_cirs x y s, fun h => ?_⟩
  obtain ⟨h1, h2, h3⟩ := pole_angles h
  ext j
  fin_cases j
  · simp [cirsMatrix, h1]
  · simp [cirsMatrix, h2]
  · simp [cirsMatrix, h3]

/-- **C102, finding.** The third row of the celestial-to-intermediate matrix should be the pole
itself; with the signs reversed, the matrix takes the pole `(X, Y, Z)` to the third axis only
when the pole has not moved at all. -/
theorem intermediate_pole_missed {x y z s : ℝ} (h : x ^ 2 + y ^ 2 + z ^ 2 = 1) :
    (cirsMatrix x y s).mulVec ![x, y, z] = pole → x = 0 ∧ y = 0 := by
  intro he
  have hr : x * x + y * y ≤ 1 := by nlinarith [sq_nonneg z]
  have h3 := congrFun he 2
  have row := (intermediate_matrix x y s).2 hr
  have e : (cirsMatrix x y s).mulVec ![x, y, z] 2
      = -x * x + -y * y + Real.sqrt (1 - (x * x + y * y)) * z := by
    simp only [Matrix.mulVec, dotProduct, Fin.sum_univ_three, row]
    simp
  rw [e] at h3
  simp [pole] at h3
  have hz : Real.sqrt (1 - (x * x + y * y)) = |z| := by
    rw [show 1 - (x * x + y * y) = z ^ 2 by nlinarith, Real.sqrt_sq_eq_abs]
  rw [hz] at h3
  have : |z| * z ≤ z ^ 2 := by nlinarith [le_abs_self z, abs_nonneg z, sq_abs z]
  constructor <;> nlinarith [mul_self_nonneg x, mul_self_nonneg y, sq_nonneg z]

/-- **C102, finding.** The pole comes out displaced by twice its distance from the GCRS pole: the
third component of its image is `cos 2d = 1 − 2(X² + Y²)`. -/
theorem intermediate_pole_error {x y s : ℝ} (h : x * x + y * y ≤ 1) :
    (cirsMatrix x y s).mulVec ![x, y, Real.sqrt (1 - (x * x + y * y))] 2
      = 1 - 2 * (x * x + y * y) := by
  have row := (intermediate_matrix x y s).2 h
  have hs : Real.sqrt (1 - (x * x + y * y)) * Real.sqrt (1 - (x * x + y * y))
      = 1 - (x * x + y * y) := Real.mul_self_sqrt (by linarith)
  simp only [Matrix.mulVec, dotProduct, Fin.sum_univ_three, row]
  simp
  nlinarith

/-- **C102.** Where the pole has not moved the matrix is the rotation by `s`. -/
theorem intermediate_fixed_pole (s : ℝ) : cirsMatrix 0 0 s = rz s := by
  rw [cirs_product]
  have h1 : atan2 0 0 = 0 := by
    unfold atan2
    rw [show (⟨0, 0⟩ : ℂ) = 0 from rfl, Complex.arg_zero]
  have h2 : atan2 (Real.sqrt (0 * 0 + 0 * 0)) (Real.sqrt (max (1 - (0 * 0 + 0 * 0)) 0)) = 0 := by
    unfold atan2
    simp
    rw [show (⟨1, 0⟩ : ℂ) = 1 from rfl, Complex.arg_one]
  rw [h1, h2, ry_zero, neg_zero, rz_zero, zero_add, Matrix.mul_one, Matrix.mul_one]

/-- **C102, finding.** The true equator of date and the intermediate system have the same pole, so
the rotation between them must leave the third axis fixed; the one supplied does not, at any date
where the pole differs from the GCRS pole. -/
theorem true_and_intermediate_pole {c : Ctx} {jd : ℝ} (h : Sound c jd) {m : M3}
    (hm : rotation c jd .trueOfDate .cirs = some m) (hp : m.mulVec pole = pole) :
    cipXy jd (nutationWithOffsets (c.nut jd) (c.eopAtTt jd)).1
      (nutationWithOffsets (c.nut jd) (c.eopAtTt jd)).2 = (0, 0) := by
  have v := rotation_value h (Or.inr (by decide)) hm
  rw [v] at hp
  simp only [ref] at hp
  set d := nutationWithOffsets (c.nut jd) (c.eopAtTt jd) with hd
  obtain ⟨z, hz, hpole⟩ := intermediate_pole jd d.1 d.2
  have hn := proper_npb jd d.1 d.2
  have e : (precessionNutation jd d.1 d.2)ᵀ.mulVec pole
      = ![(cipXy jd d.1 d.2).1, (cipXy jd d.1 d.2).2, z] := by
    rw [← hpole, Matrix.mulVec_mulVec, hn.1, Matrix.one_mulVec]
  rw [← Matrix.mulVec_mulVec, e] at hp
  have := intermediate_pole_missed hz hp
  exact Prod.ext this.1 this.2

/-- **C100.** The frame of the element sets (TEME) turns into the true equator of date by the
equation of the equinoxes without its complementary terms: apparent sidereal time measured in the
latter is mean sidereal time, plus those terms, measured in the former. -/
theorem teme_sidereal {c : Ctx} {jd : ℝ} (jdUt1 : ℝ) {m : M3}
    (hm : rotation c jd .teme .trueOfDate = some m) :
    rz (-gast jdUt1 jd (c.nut jd).dpsi (c.nut jd).meanObliquity) * m
      = rz (-(gmst jdUt1 jd + complementaryTerms jd)) := by
  have p : plan 8 .teme .trueOfDate = some (.lit .temeToTod) := rfl
  unfold rotation at hm
  rw [p] at hm
  simp only [Option.map_some, Plan.value, Lit.value, Option.some.injEq] at hm
  subst hm
  rw [← rz_add]
  have h := (apparent_sidereal_time jdUt1 jd (c.nut jd).dpsi (c.nut jd).meanObliquity).2
  apply rz_same
  obtain ⟨k, hk⟩ := h
  refine ⟨-k, ?_⟩
  push_cast
  linarith

/-! ## The ecliptic of date -/

/-- **C103.** The true ecliptic of date is the mean ecliptic of date turned by the nutation in
longitude about the ecliptic pole: latitudes are equal and longitudes differ by exactly `Δψ`,
whatever the nutation in obliquity. -/
theorem ecliptic_nutation (jd : ℝ) (n : Nut) (h : n.meanObliquity = meanObliquity jd) :
    gcrsToTrueEclipticOfDate n jd = rz n.dpsi * gcrsToEclipticOfDate jd := by
  have he : (fwAngles jd).epsa = n.meanObliquity := by rw [h]; rfl
  unfold gcrsToTrueEclipticOfDate gcrsToEclipticOfDate precessionNutation precession fwMatrix
  simp only [he, ← h]
  have c1 : rx (-(n.meanObliquity + n.deps)) * rx (n.meanObliquity + n.deps) = 1 := by
    rw [← rx_add, neg_add_cancel, rx_zero]
  have c2 : rx (-n.meanObliquity) * rx n.meanObliquity = 1 := by
    rw [← rx_add, neg_add_cancel, rx_zero]
  rw [add_comm (fwAngles jd).psib, rz_add]
  simp only [← Matrix.mul_assoc]
  rw [c1, Matrix.one_mul]
  congr 2
  rw [Matrix.mul_assoc (rz n.dpsi) (rx (-n.meanObliquity)), c2, Matrix.mul_one]

/-- **C103.** The same for a direction: the longitude grows by `Δψ`, the latitude stays. -/
theorem ecliptic_longitude (jd l b : ℝ) (n : Nut) (h : n.meanObliquity = meanObliquity jd)
    (v : V3) (hv : (gcrsToEclipticOfDate jd).mulVec v = direction l b) :
    (gcrsToTrueEclipticOfDate n jd).mulVec v = direction (l + n.dpsi) b := by
  rw [ecliptic_nutation jd n h, ← Matrix.mulVec_mulVec, hv]
  ext i
  fin_cases i <;>
    simp [rz, direction, Matrix.mulVec, dotProduct, Fin.sum_univ_three, Real.cos_add,
      Real.sin_add] <;> ring

/-- **C103.** The ecliptic conversions from the mean equator of date agree with those from
GCRS. -/
theorem ecliptic_paths (jd : ℝ) (n : Nut) (h : n.meanObliquity = meanObliquity jd) :
    meanEquatorialToEclipticOfDate jd * precession jd = gcrsToEclipticOfDate jd
      ∧ meanEquatorialToTrueEcliptic n * precession jd = gcrsToTrueEclipticOfDate n jd
      ∧ Proper (gcrsToEclipticOfDate jd) ∧ Proper (gcrsToTrueEclipticOfDate n jd) := by
  refine ⟨rfl, ?_, Proper.mul (proper_rx _) (proper_precession _),
    Proper.mul (proper_rx _) (proper_npb _ _ _)⟩
  unfold meanEquatorialToTrueEcliptic gcrsToTrueEclipticOfDate
  rw [Matrix.mul_assoc, nutation_precession jd n h]

/-! ## Polar motion -/

/-- **C104.** In the Earth-fixed frame the intermediate pole lies at
`(sin xp cos yp, −sin yp, cos xp cos yp)`, turned by the small angle `−s'`: towards `xp` along the
Greenwich meridian and towards `−yp` along the meridian 90° east. -/
theorem polar_motion_pole (xp yp sp : ℝ) :
    (rz sp * polarMotion xp yp sp).mulVec pole
        = ![Real.sin xp * Real.cos yp, -Real.sin yp, Real.cos xp * Real.cos yp]
      ∧ Proper (polarMotion xp yp sp) := by
  refine ⟨?_, proper_polar _ _ _⟩
  unfold polarMotion
  have c1 : rz sp * rz (-sp) = 1 := by rw [← rz_add, add_neg_cancel, rz_zero]
  rw [← Matrix.mul_assoc, ← Matrix.mul_assoc, c1, Matrix.one_mul, mulVec_pole]
  ext i
  fin_cases i <;> simp [rx, ry, Matrix.mul_apply, Fin.sum_univ_three]

/-- **C104.** For the Earth orientation parameters of a date: `xp`, `yp` in arcseconds and `s'` of
−47 microarcseconds a century. -/
theorem terrestrial_pole (jd : ℝ) (e : Eop) :
    let x := microarcsec (e.xp * 1000000)
    let y := microarcsec (e.yp * 1000000)
    (rz (microarcsec (-47 * ((jd - 2451545) / 36525))) * tirsToItrf jd e).mulVec pole
        = ![Real.sin x * Real.cos y, -Real.sin y, Real.cos x * Real.cos y] := by
  have a : ∀ v : ℝ, microarcsec (v * 1000000) = arcsec v := by
    intro v; unfold arcsec microarcsec; ring
  have b : microarcsec (-47 * ((jd - 2451545) / 36525)) = tioLocator jd := by
    unfold tioLocator arcsec microarcsec centuries; ring
  simp only [a, b]
  exact (polar_motion_pole _ _ _).1

/-- **C104, finding.** The factors are in the opposite order to the cited routine, which applies
`Ry(xp)` before `Rx(yp)`: the two matrices differ whenever both pole coordinates are non-zero. -/
theorem polar_motion_order {xp yp : ℝ} (hx : Real.sin xp ≠ 0) (hy : Real.sin yp ≠ 0) :
    polarMotion xp yp 0 ≠ rx yp * ry xp * rz 0 := by
  intro h
  have := congrFun (congrFun h 0) 1
  simp [polarMotion, rx, ry, rz, Matrix.mul_apply, Fin.sum_univ_three] at this
  tauto

/-! ## Observing sites -/

/-- **C105.** Converting a position from geocentric to topocentric and back gives it again, for
every frame, site and date. -/
theorem topocentric_back (c : Ctx) (f : M3) (pos site : V3) (jd : ℝ) :
    c.toGeocentric f (c.toTopocentric f pos site jd) site jd = pos
      ∧ c.toTopocentric f (c.toGeocentric f pos site jd) site jd = pos := by
  unfold Ctx.toGeocentric Ctx.toTopocentric
  exact ⟨by simp, by simp⟩

/-- **C105.** The site's distance from the geocentre is kept. -/
theorem site_distance (c : Ctx) (site : V3) (jd : ℝ) :
    c.sitePosition site jd ⬝ᵥ c.sitePosition site jd = site ⬝ᵥ site := by
  have hp : Proper (c.itrsToJ2000 jd) := by
    unfold Ctx.itrsToJ2000
    exact Proper.mul proper_bias (Proper.mul (Proper.mul (proper_cirs _ _ _) (proper_rz _))
      (proper_transpose (proper_polar _ _ _)))
  unfold Ctx.sitePosition
  rw [Matrix.dotProduct_mulVec, ← Matrix.mulVec_transpose, Matrix.mulVec_mulVec, hp.1,
    Matrix.one_mulVec]

/-- The orientation parameters the site conversion uses. -/
noncomputable def siteEop (c : Ctx) (jd : ℝ) : Eop :=
  match c.utcFromTt jd with
  | some utc => c.eopAt utc
  | none => Eop.zero

theorem itrs_eq (c : Ctx) (jd : ℝ) :
    c.itrsToJ2000 jd = bias * (c.gcrsToCirs jd (siteEop c jd)
      * rz (-earthRotationAngle (c.ut1 jd (siteEop c jd)))
      * (tirsToItrf jd (siteEop c jd))ᵀ) := rfl

theorem provider_itrf {c : Ctx} {jd : ℝ} (h : Sound c jd) {m : M3}
    (hm : rotation c jd .itrf .meanJ2000 = some m) :
    m = bias * ((c.gcrsToCirs jd (c.eopAtTt jd))ᵀ
      * rz (earthRotationAngle (c.ut1 jd (c.eopAtTt jd)))
      * (tirsToItrf jd (c.eopAtTt jd))ᵀ) := by
  rw [rotation_value h (Or.inr (by decide)) hm]
  simp only [ref, Matrix.transpose_mul, Ctx.cirsToTirs, rz_transpose, neg_neg, Matrix.mul_assoc]

/-- Two contexts that differ only in how far the Earth has turned: by the angle `θ`. -/
structure Turned (c c' : Ctx) (jd θ : ℝ) : Prop where
  nut : c'.nut jd = c.nut jd
  utc : c'.utcFromTt jd = c.utcFromTt jd
  delta : c'.utcDeltaT jd = c.utcDeltaT jd
  eop : c'.eopAt = c.eopAt
  site : SameAngle (earthRotationAngle (c'.ut1 jd (siteEop c jd)))
    (earthRotationAngle (c.ut1 jd (siteEop c jd)) + θ)
  frame : SameAngle (earthRotationAngle (c'.ut1 jd (c.eopAtTt jd)))
    (earthRotationAngle (c.ut1 jd (c.eopAtTt jd)) + θ)

/-- **C105.** The frame rotation turns an Earth-fixed vector eastwards: if the Earth turns by `θ`,
the vector turns by `+θ` about the axis. -/
theorem frame_turns_east {c c' : Ctx} {jd θ : ℝ} (h : Sound c jd) (h' : Sound c' jd)
    (ht : Turned c c' jd θ) {m m' : M3} (hm : rotation c jd .itrf .meanJ2000 = some m)
    (hm' : rotation c' jd .itrf .meanJ2000 = some m') :
    ∃ a, Proper a ∧ m' = a * rz θ * aᵀ * m := by
  have e1 := provider_itrf h hm
  have e2 := provider_itrf h' hm'
  have he : c'.eopAtTt jd = c.eopAtTt jd := by
    unfold Ctx.eopAtTt
    rw [ht.utc, ht.delta, ht.eop]
  have hq : c'.gcrsToCirs jd (c.eopAtTt jd) = c.gcrsToCirs jd (c.eopAtTt jd) := by
    unfold Ctx.gcrsToCirs
    rw [ht.nut]
  rw [he, hq, rz_same ht.frame, add_comm, rz_add] at e2
  set q := c.gcrsToCirs jd (c.eopAtTt jd)
  have pq : Proper q := proper_cirs _ _ _
  have pa : Proper (bias * qᵀ) := Proper.mul proper_bias (proper_transpose pq)
  refine ⟨bias * qᵀ, pa, ?_⟩
  rw [e1, e2]
  have := pa.1
  calc _ = bias * qᵀ * rz θ * (1 * (rz (earthRotationAngle (c.ut1 jd (c.eopAtTt jd)))
          * (tirsToItrf jd (c.eopAtTt jd))ᵀ)) := by
        rw [Matrix.one_mul]; simp only [Matrix.mul_assoc]
    _ = _ := by rw [← this]; simp only [Matrix.mul_assoc]

/-- **C105, finding.** The conversion used for observing sites turns the other way: if the Earth
turns by `θ`, the site turns by `−θ` about the axis, that is to the west. -/
theorem site_turns_west {c c' : Ctx} {jd θ : ℝ} (ht : Turned c c' jd θ) (site : V3) :
    ∃ a, Proper a ∧ a.mulVec pole = (bias * c.gcrsToCirs jd (siteEop c jd)).mulVec pole
      ∧ c'.sitePosition site jd = (a * rz (-θ) * aᵀ).mulVec (c.sitePosition site jd) := by
  have he : siteEop c' jd = siteEop c jd := by
    unfold siteEop
    rw [ht.utc, ht.eop]
  have hq : c'.gcrsToCirs jd (siteEop c jd) = c.gcrsToCirs jd (siteEop c jd) := by
    unfold Ctx.gcrsToCirs
    rw [ht.nut]
  have pq : Proper (c.gcrsToCirs jd (siteEop c jd)) := proper_cirs _ _ _
  have pa := Proper.mul proper_bias pq
  refine ⟨bias * c.gcrsToCirs jd (siteEop c jd), pa, rfl, ?_⟩
  unfold Ctx.sitePosition
  rw [itrs_eq, itrs_eq, he, hq, rz_same (same_neg ht.site), neg_add_rev, rz_add,
    Matrix.mulVec_mulVec]
  congr 1
  have := pa.1
  calc _ = bias * c.gcrsToCirs jd (siteEop c jd) * rz (-θ)
          * (1 * (rz (-earthRotationAngle (c.ut1 jd (siteEop c jd)))
            * (tirsToItrf jd (siteEop c jd))ᵀ)) := by
        rw [Matrix.one_mul]; simp only [Matrix.mul_assoc]
    _ = _ := by rw [← this]; simp only [Matrix.mul_assoc]

/-- **C105, finding.** Where the pole has not moved (`X = Y = 0`) the site conversion and the frame
rotation from ITRF to the J2000 equator agree only when the Earth rotation angle less `s` is a
multiple of half a turn. -/
theorem site_contradicts_frame {c : Ctx} {jd utc : ℝ} (h : Sound c jd)
    (hu : c.utcFromTt jd = some utc)
    (hxy : cipXy jd (nutationWithOffsets (c.nut jd) (c.eopAt utc)).1
      (nutationWithOffsets (c.nut jd) (c.eopAt utc)).2 = (0, 0))
    {m : M3} (hm : rotation c jd .itrf .meanJ2000 = some m) :
    c.itrsToJ2000 jd = m
      ↔ Real.sin (earthRotationAngle (c.ut1 jd (c.eopAt utc)) - cioLocator jd 0 0) = 0 := by
  have es : siteEop c jd = c.eopAt utc := by unfold siteEop; rw [hu]
  have ef : c.eopAtTt jd = c.eopAt utc := by unfold Ctx.eopAtTt; rw [hu]
  rw [itrs_eq, provider_itrf h hm, es, ef]
  have hq : c.gcrsToCirs jd (c.eopAt utc) = rz (cioLocator jd 0 0) := by
    unfold Ctx.gcrsToCirs
    simp only [hxy]
    exact intermediate_fixed_pole _
  rw [hq]
  set e := earthRotationAngle (c.ut1 jd (c.eopAt utc))
  set s := cioLocator jd 0 0
  have pw : Proper (tirsToItrf jd (c.eopAt utc)) := proper_polar _ _ _
  set w := tirsToItrf jd (c.eopAt utc)
  rw [rz_transpose, ← rz_add, ← rz_add]
  have cancel : (bias * (rz (s + -e) * wᵀ) = bias * (rz (-s + e) * wᵀ))
      ↔ rz (s + -e) = rz (-s + e) := by
    constructor
    · intro hh
      have := congrArg (fun z => biasᵀ * z * w) hh
      beta_reduce at this
      have k : ∀ a : M3, biasᵀ * (bias * (a * wᵀ)) * w = a := by
        intro a
        rw [← Matrix.mul_assoc, proper_bias.1, Matrix.one_mul, Matrix.mul_assoc, pw.1,
          Matrix.mul_one]
      rw [k, k] at this
      exact this
    · intro hh; rw [hh]
  rw [cancel]
  have n1 : s + -e = -(e - s) := by ring
  have n2 : -s + e = e - s := by ring
  rw [n1, n2]
  generalize e - s = u
  constructor
  · intro hh
    have := congrFun (congrFun hh 1) 0
    simp [rz] at this
    linarith
  · intro hh
    ext i j
    fin_cases i <;> fin_cases j <;> simp [rz, hh]

/-- **C105, finding.** Without polar motion, the diurnal velocity given to an observer is exactly
opposite to the velocity of the site position as the Earth turns at the stated rate. -/
theorem diurnal_velocity_reversed {c : Ctx} {jd θ₀ : ℝ} (site : V3) (i : Fin 3)
    (hw : tirsToItrf jd (siteEop c jd) = 1)
    (he : SameAngle (earthRotationAngle (c.ut1 jd (siteEop c jd))) θ₀) :
    HasDerivAt (fun t => (bias * (c.gcrsToCirs jd (siteEop c jd)
        * rz (-(θ₀ + 7.2921150e-5 * t)))).mulVec site i)
      (-(c.diurnalVelocity site jd i)) 0 := by
  have hd : ∀ a b : ℝ, HasDerivAt (fun t : ℝ => Real.cos (-(a + b * t))) (-(b * Real.sin a)) 0 := by
    intro a b
    have h1 : HasDerivAt (fun t : ℝ => -(a + b * t)) (-b) 0 := by
      have := (((hasDerivAt_id (0 : ℝ)).const_mul b).const_add a).neg
      rw [mul_one] at this
      exact this
    have := h1.cos
    refine this.congr_deriv ?_
    simp
    ring
  have hs : ∀ a b : ℝ, HasDerivAt (fun t : ℝ => Real.sin (-(a + b * t))) (-(b * Real.cos a)) 0 := by
    intro a b
    have h1 : HasDerivAt (fun t : ℝ => -(a + b * t)) (-b) 0 := by
      have := (((hasDerivAt_id (0 : ℝ)).const_mul b).const_add a).neg
      rw [mul_one] at this
      exact this
    have := h1.sin
    refine this.congr_deriv ?_
    simp
    ring
  set A := bias * c.gcrsToCirs jd (siteEop c jd) with hA
  have e1 : ∀ t : ℝ, (bias * (c.gcrsToCirs jd (siteEop c jd)
        * rz (-(θ₀ + 7.2921150e-5 * t)))).mulVec site i
      = A i 0 * (Real.cos (-(θ₀ + 7.2921150e-5 * t)) * site 0
          - Real.sin (-(θ₀ + 7.2921150e-5 * t)) * site 1)
        + A i 1 * (Real.sin (-(θ₀ + 7.2921150e-5 * t)) * site 0
          + Real.cos (-(θ₀ + 7.2921150e-5 * t)) * site 1) + A i 2 * site 2 := by
    intro t
    rw [← Matrix.mul_assoc, ← hA, ← Matrix.mulVec_mulVec]
    simp only [rz, Matrix.mulVec, dotProduct, Fin.sum_univ_three]
    simp only [Matrix.of_apply, Matrix.cons_val', Matrix.cons_val_zero, Matrix.cons_val_one,
      Matrix.cons_val, Matrix.cons_val_fin_one]
    ring
  have e2 : c.diurnalVelocity site jd i
      = A i 0 * (Real.cos (-θ₀) * (-(site 1) * 7.2921150e-5)
          - Real.sin (-θ₀) * (site 0 * 7.2921150e-5))
        + A i 1 * (Real.sin (-θ₀) * (-(site 1) * 7.2921150e-5)
          + Real.cos (-θ₀) * (site 0 * 7.2921150e-5)) := by
    unfold Ctx.diurnalVelocity
    rw [itrs_eq, hw, Matrix.transpose_one, Matrix.mul_one, rz_same (same_neg he),
      ← Matrix.mul_assoc, ← hA, ← Matrix.mulVec_mulVec]
    simp only [rz, Matrix.mulVec, dotProduct, Fin.sum_univ_three]
    simp
  rw [funext e1, e2]
  have hc := hd θ₀ 7.2921150e-5
  have hsn := hs θ₀ 7.2921150e-5
  have := ((((hc.mul_const (site 0)).sub (hsn.mul_const (site 1))).const_mul (A i 0)).add
    (((hsn.mul_const (site 0)).add (hc.mul_const (site 1))).const_mul (A i 1))).add_const
      (A i 2 * site 2)
  refine this.congr_deriv ?_
  rw [Real.cos_neg, Real.sin_neg]
  ring

/-! ## The catalogue frames -/

/-- No literal of the plan is one of the two catalogue matrices. -/
def Plan.plain : Plan → Bool
  | .lit l => l ∉ [Lit.galactic, .galacticInv, .fk4ToIcrs, .icrsToFk4, .fk4]
  | .mul p q => Plan.plain p && Plan.plain q
  | .inv p => Plan.plain p

/-- Neither of the two catalogue frames. -/
def Inertial (f : Frame) : Prop := f ≠ .galactic ∧ f ≠ .fk4

theorem plan_plain {a b : Frame} (ha : Inertial a) (hb : Inertial b) :
    ∀ p, plan 8 a b = some p → Plan.plain p = true := by
  have : ∀ a b : Frame, a ≠ .galactic → a ≠ .fk4 → b ≠ .galactic → b ≠ .fk4 →
      ((plan 8 a b).map Plan.plain).getD true = true := by
    intro a b
    cases a <;> cases b <;> decide +kernel
  intro p hp
  have := this a b ha.1 ha.2 hb.1 hb.2
  rw [hp] at this
  exact this

/-- The context with the catalogue matrices replaced by the identity. -/
def uncatalogued (c : Ctx) : Ctx := { c with galactic := 1, fk4 := 1 }

theorem plain_value (c : Ctx) (jd : ℝ) : ∀ p, Plan.plain p = true →
    Plan.value (uncatalogued c) jd p = Plan.value c jd p := by
  intro p
  induction p with
  | lit l => intro h; revert h; cases l <;> first | exact fun _ => rfl | (intro h; cases h)
  | mul p q hp hq =>
    intro h
    simp only [Plan.plain, Bool.and_eq_true] at h
    simp only [Plan.value, hp h.1, hq h.2]
  | inv p hp =>
    intro h
    simp only [Plan.plain] at h
    simp only [Plan.value, hp h]

theorem inertial_chain {c : Ctx} {jd : ℝ} {ok : Frame → Frame → Prop} {a b : Frame} {m : M3}
    (h : Chain (rotation c jd) (fun a b => Inertial a ∧ Inertial b ∧ ok a b) a b m) :
    Chain (rotation (uncatalogued c) jd) ok a b m := by
  induction h with
  | refl => exact .refl _
  | step _ hr hk ih =>
    refine .step ih ?_ hk.2.2
    rw [← hr]
    unfold rotation
    cases hp : plan 8 _ _ with
    | none => rfl
    | some p => simp only [Option.map_some, plain_value c jd p (plan_plain hk.1 hk.2.1 p hp)]

/-- **C101.** Among the thirteen frames other than the two catalogue frames, and with nothing
assumed about the catalogue matrices, all paths between two frames give the same proper
rotation. -/
theorem inertial_frames_consistent {c : Ctx} {jd : ℝ}
    (ho : (c.nut jd).meanObliquity = meanObliquity jd) {a b : Frame} {m n : M3}
    (hw : NoOffsets c jd)
    (hm : Chain (rotation c jd) (fun a b => Inertial a ∧ Inertial b ∧ True) a b m)
    (hn : Chain (rotation c jd) (fun a b => Inertial a ∧ Inertial b ∧ True) a b n) :
    m = n ∧ Proper m := by
  have one : Proper (1 : M3) := by constructor <;> simp
  exact frames_consistent (c := uncatalogued c) ⟨one, one, ho⟩ hw (inertial_chain hm)
    (inertial_chain hn)

/-- The deviation of `mᵀ m` from the identity. -/
def NearProper (m : M3) (δ : ℝ) : Prop :=
  (∀ i j, |(mᵀ * m) i j - (1 : M3) i j| ≤ δ) ∧ |m.det - 1| ≤ δ

/-- **C106.** The FK4 matrix is a proper rotation up to one unit in the sixteenth decimal place;
it carries the B1950 equinox to positive right ascension, as precession does. -/
theorem fk4_rotation : NearProper fk4ToFk5 1e-16
    ∧ 0 < fk4ToFk5.mulVec ![1, 0, 0] 1 := by
  refine ⟨⟨fun i j => ?_, ?_⟩, ?_⟩
  · fin_cases i <;> fin_cases j <;>
      simp [fk4ToFk5, Matrix.mul_apply, Fin.sum_univ_three, abs_le] <;> norm_num
  · simp [fk4ToFk5, Matrix.det_fin_three, abs_le]
    norm_num
  · simp [fk4ToFk5, Matrix.mulVec, dotProduct, Fin.sum_univ_three]
    norm_num

/-- **C106, finding.** The Galactic matrix is a rotation only to ten decimal places: its rows and
columns are not orthonormal, although it is given to sixteen.  One element is at fault. -/
theorem galactic_rotation :
    NearProper galacticToIcrs 1.3e-10 ∧ ¬NearProper galacticToIcrs 1.2e-10
      ∧ NearProper (galacticToIcrs.updateRow 1
          ![galacticToIcrs 1 0, galacticToIcrs 1 1, 0.7469822444972189]) 2e-15 := by
  refine ⟨⟨fun i j => ?_, ?_⟩, fun h => ?_, ⟨fun i j => ?_, ?_⟩⟩
  · fin_cases i <;> fin_cases j <;>
      simp [galacticToIcrs, Matrix.mul_apply, Fin.sum_univ_three, abs_le] <;> norm_num
  · simp [galacticToIcrs, Matrix.det_fin_three, abs_le]
    norm_num
  · have := h.1 2 2
    simp [galacticToIcrs, Matrix.mul_apply, Fin.sum_univ_three, abs_le] at this
    norm_num at this
  · fin_cases i <;> fin_cases j <;>
      simp [galacticToIcrs, Matrix.mul_apply, Fin.sum_univ_three, Matrix.updateRow_apply,
        abs_le] <;> norm_num
  · simp [galacticToIcrs, Matrix.det_fin_three, Matrix.updateRow_apply, abs_le]
    norm_num

/-- The north Galactic pole: right ascension 192.85948°, declination 27.12825°
(Hipparcos and Tycho Catalogues, volume 1, 1.5.3). -/
noncomputable def northGalacticPole : V3 :=
  direction (192.85948 * Real.pi / 180) (27.12825 * Real.pi / 180)

theorem pole_bounds :
    |northGalacticPole 0 + 0.8677| ≤ 0.01 ∧ |northGalacticPole 1 + 0.1981| ≤ 0.01
      ∧ |northGalacticPole 2 - 0.4560| ≤ 0.01 := by
  have lo := Real.pi_gt_d20
  have hi := Real.pi_lt_d20
  set a : ℝ := 12.85948 * Real.pi / 180 with ha
  set d : ℝ := 27.12825 * Real.pi / 180 with hd
  have ea : 192.85948 * Real.pi / 180 = a + Real.pi := by rw [ha]; ring
  have a1 : 0.2244 ≤ a := by rw [ha]; norm_num at lo hi ⊢; linarith
  have a2 : a ≤ 0.2245 := by rw [ha]; norm_num at lo hi ⊢; linarith
  have d1 : 0.4734 ≤ d := by rw [hd]; norm_num at lo hi ⊢; linarith
  have d2 : d ≤ 0.4735 := by rw [hd]; norm_num at lo hi ⊢; linarith
  have bnd : ∀ {x l u : ℝ}, 0 ≤ l → l ≤ x → x ≤ u → u ≤ 1 →
      1 - u ^ 2 / 2 - u ^ 4 * (5 / 96) ≤ Real.cos x ∧ Real.cos x ≤ 1 - l ^ 2 / 2 + u ^ 4 * (5 / 96)
      ∧ l - u ^ 3 / 6 - u ^ 5 / 100 ≤ Real.sin x
      ∧ Real.sin x ≤ u - l ^ 3 / 6 + u ^ 5 / 100 := by
    intro x l u h0 h1 h2 h3
    have hx : |x| ≤ 1 := by rw [abs_of_nonneg (h0.trans h1)]; exact h2.trans h3
    have c := abs_le.mp (Real.cos_bound hx)
    have s := abs_le.mp (Real.sin_bound hx)
    rw [abs_of_nonneg (h0.trans h1)] at c s
    have p4 : x ^ 4 ≤ u ^ 4 := pow_le_pow_left₀ (h0.trans h1) h2 4
    have p5 : x ^ 5 ≤ u ^ 5 := pow_le_pow_left₀ (h0.trans h1) h2 5
    have p2 : x ^ 2 ≤ u ^ 2 := pow_le_pow_left₀ (h0.trans h1) h2 2
    have p3 : x ^ 3 ≤ u ^ 3 := pow_le_pow_left₀ (h0.trans h1) h2 3
    have q2 : l ^ 2 ≤ x ^ 2 := pow_le_pow_left₀ h0 h1 2
    have q3 : l ^ 3 ≤ x ^ 3 := pow_le_pow_left₀ h0 h1 3
    refine ⟨?_, ?_, ?_, ?_⟩ <;> linarith
  obtain ⟨c1, c2, s1, s2⟩ := bnd (by norm_num) a1 a2 (by norm_num)
  obtain ⟨k1, k2, t1, t2⟩ := bnd (by norm_num) d1 d2 (by norm_num)
  norm_num at c1 c2 s1 s2 k1 k2 t1 t2
  unfold northGalacticPole direction
  rw [ea, ← hd, Real.cos_add_pi, Real.sin_add_pi]
  clear_value a d
  have m1 := mul_le_mul k1 c1 (by norm_num) (by linarith)
  have m2 := mul_le_mul k2 c2 (by linarith) (by norm_num)
  have m3 := mul_le_mul k1 s1 (by norm_num) (by linarith)
  have m4 := mul_le_mul k2 s2 (by linarith) (by norm_num)
  simp only [Matrix.cons_val_zero, Matrix.cons_val_one, Matrix.cons_val, abs_le]
  refine ⟨⟨?_, ?_⟩, ⟨?_, ?_⟩, ⟨?_, ?_⟩⟩ <;> norm_num <;> linarith

/-- **C106, finding.** The Galactic pole is sent to a point about 61° away from the north Galactic
pole: the angle's cosine is below one half.  The transposed matrix, used for the opposite
direction, would send it there. -/
theorem galactic_inverted {c : Ctx} {jd : ℝ} (hc : c.galactic = galacticToIcrs) {m n : M3}
    (hm : rotation c jd .galactic .icrs = some m) (hn : rotation c jd .icrs .galactic = some n) :
    m.mulVec pole ⬝ᵥ northGalacticPole < 0.5
      ∧ ∀ i, |n.mulVec pole i - northGalacticPole i| ≤ 0.011 := by
  have p1 : plan 8 .galactic .icrs = some (.lit .galactic) := rfl
  have p2 : plan 8 .icrs .galactic = some (.lit .galacticInv) := rfl
  unfold rotation at hm hn
  rw [p1] at hm
  rw [p2] at hn
  simp only [Option.map_some, Plan.value, Lit.value, Option.some.injEq] at hm hn
  rw [hc] at hm hn
  obtain ⟨b0, b1, b2⟩ := pole_bounds
  rw [abs_le] at b0 b1 b2
  norm_num at b0 b1 b2
  subst hm hn
  refine ⟨?_, fun i => ?_⟩
  · rw [mulVec_pole]
    simp only [dotProduct, Fin.sum_univ_three, galacticToIcrs]
    simp
    norm_num
    linarith
  · rw [mulVec_pole, abs_le]
    fin_cases i <;> simp [galacticToIcrs] <;> norm_num <;> constructor <;> linarith

/-! ## Instances -/

/-- A context: no nutation, no orientation parameters, clocks equal. -/
noncomputable def plainCtx : Ctx where
  nut jd := ⟨0, 0, meanObliquity jd⟩
  eopAt _ := ⟨0, 0.1, 0.3, 0, 0⟩
  utcFromTt jd := some jd
  utcDeltaT jd := jd
  ut1FromTt jd := jd
  bundledDut1 _ := some 0
  galactic := galacticToIcrs
  fk4 := fk4ToFk5

/-- The same with Galactic and FK4 frames that coincide with ICRS and FK5. -/
noncomputable def exactCtx : Ctx := uncatalogued plainCtx

theorem exact_sound (jd : ℝ) : Sound exactCtx jd := by
  have one : Proper (1 : M3) := by constructor <;> simp
  exact ⟨one, one, rfl⟩

example (jd : ℝ) : (plainCtx.nut jd).meanObliquity = meanObliquity jd ∧ NoOffsets plainCtx jd := by
  exact ⟨rfl, rfl, rfl⟩

/-- Two different paths from ICRS to the true equator of date. -/
example (jd : ℝ) : ∃ m n p q,
    rotation plainCtx jd .icrs .trueOfDate = some m ∧ rotation plainCtx jd .icrs .meanJ2000 = some n
      ∧ rotation plainCtx jd .meanJ2000 .meanOfDate = some p
      ∧ rotation plainCtx jd .meanOfDate .trueOfDate = some q ∧ m = q * p * n := by
  have h := fun a b m (hm : rotation plainCtx jd a b = some m) (hi : Inertial a ∧ Inertial b ∧ True) =>
    Chain.step (R := rotation plainCtx jd) (ok := fun a b => Inertial a ∧ Inertial b ∧ True)
      (Chain.refl a) hm hi
  have e1 : rotation plainCtx jd .icrs .trueOfDate
      = some (Plan.value plainCtx jd (.lit .icrsToTod)) := by
    have p : plan 8 .icrs .trueOfDate = some (.lit .icrsToTod) := rfl
    unfold rotation; rw [p]; rfl
  have e2 : rotation plainCtx jd .icrs .meanJ2000 = some (Plan.value plainCtx jd (.lit .bias)) := by
    have p : plan 8 .icrs .meanJ2000 = some (.lit .bias) := rfl
    unfold rotation; rw [p]; rfl
  have e3 : rotation plainCtx jd .meanJ2000 .meanOfDate
      = some (Plan.value plainCtx jd (.lit .j2000ToMod)) := by
    have p : plan 8 .meanJ2000 .meanOfDate = some (.lit .j2000ToMod) := rfl
    unfold rotation; rw [p]; rfl
  have e4 : rotation plainCtx jd .meanOfDate .trueOfDate
      = some (Plan.value plainCtx jd (.lit .modToTod)) := by
    have p : plan 8 .meanOfDate .trueOfDate = some (.lit .modToTod) := rfl
    unfold rotation; rw [p]; rfl
  refine ⟨_, _, _, _, e1, e2, e3, e4, ?_⟩
  have i : ∀ {a b : Frame}, a ≠ .galactic → a ≠ .fk4 → b ≠ .galactic → b ≠ .fk4 →
      Inertial a ∧ Inertial b ∧ True := fun h1 h2 h3 h4 => ⟨⟨h1, h2⟩, ⟨h3, h4⟩, trivial⟩
  have c1 := Chain.step (Chain.refl _) e1 (ok := fun a b => Inertial a ∧ Inertial b ∧ True)
    (i (by decide) (by decide) (by decide) (by decide))
  have c2 := Chain.step (Chain.step (Chain.step (Chain.refl _) e2
    (ok := fun a b => Inertial a ∧ Inertial b ∧ True)
    (i (by decide) (by decide) (by decide) (by decide))) e3
    (i (by decide) (by decide) (by decide) (by decide))) e4
    (i (by decide) (by decide) (by decide) (by decide))
  have := (inertial_frames_consistent (c := plainCtx) (jd := jd) rfl ⟨rfl, rfl⟩ c1 c2).1
  rw [Matrix.mul_one, Matrix.mul_one, ← Matrix.mul_assoc] at this
  exact this

/-- A pole that has moved. -/
example : (3 / 5 : ℝ) ^ 2 + 0 ^ 2 + (4 / 5) ^ 2 = 1 := by norm_num

example : Real.sin 1 ≠ 0 := (Real.sin_pos_of_pos_of_lt_pi one_pos (by linarith [Real.pi_gt_three])).ne'

/-- The Earth turned by a quarter: the same context with UT1 later by a quarter of a sidereal
rotation. -/
noncomputable def laterCtx (δ : ℝ) : Ctx := { plainCtx with ut1FromTt := fun jd => jd + δ }

example (jd δ : ℝ) : Turned plainCtx (laterCtx δ) jd (2 * Real.pi * 1.00273781191135448 * δ) := by
  have e : ∀ e, (laterCtx δ).ut1 jd e = plainCtx.ut1 jd e + δ := by
    intro e
    simp only [Ctx.ut1, laterCtx, plainCtx, Option.getD_some]
    ring
  refine ⟨rfl, rfl, rfl, rfl, ?_, ?_⟩
  · rw [e]; exact earth_rotation_rate _ _
  · rw [e]; exact earth_rotation_rate _ _

/-- Without polar motion and at J2000 the terrestrial matrix is the identity. -/
example : tirsToItrf 2451545 Eop.zero = 1 := by
  unfold tirsToItrf polarMotion tioLocator centuries Eop.zero arcsec
  simp [rz_zero, ry_zero, rx_zero]

end Verif.Earth.Props
