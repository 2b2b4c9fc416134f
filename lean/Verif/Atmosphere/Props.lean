import Verif.Atmosphere.Model
import Mathlib.Analysis.InnerProductSpace.Basic
import Mathlib.Analysis.InnerProductSpace.PiL2
import Mathlib.Analysis.SpecialFunctions.Trigonometric.Deriv
import Mathlib.Analysis.SpecialFunctions.Sqrt
import Mathlib.Analysis.SpecialFunctions.Log.Base
import Mathlib.Analysis.Real.Pi.Bounds
import Mathlib.Analysis.Complex.ExponentialBounds
import Mathlib.MeasureTheory.Integral.IntervalIntegral.FundThmCalculus
import Mathlib.Tactic.Linarith
import Mathlib.Tactic.NormNum
import Mathlib.Tactic.FieldSimp
import Mathlib.Tactic.Ring
import Mathlib.Tactic.LinearCombination

/-! Claims C136-C138: air mass, extinction and optical depth, airglow and scattering geometry. -/
namespace Verif.Atmosphere.Props
open Verif.Atmosphere Real

/-! ### C136: air mass -/

/-- The air mass formulas as functions of the cosine of the zenith distance. -/
noncomputable def youngC (c : ℝ) : ℝ :=
  (1.002432 * c ^ 2 + 0.148386 * c + 0.0096467) / (c ^ 3 + 0.149864 * c ^ 2 + 0.0102963 * c + 0.000303978)

theorem young_eq (z : ℝ) : young z = youngC (cos z) := by
  unfold young youngC
  ring_nf

theorem young_den {c : ℝ} (h : 0 ≤ c) : 0 < c ^ 3 + 0.149864 * c ^ 2 + 0.0102963 * c + 0.000303978 := by positivity

theorem young_anti {c d : ℝ} (hc : 0 ≤ c) (h : c < d) : youngC d < youngC c := by
  unfold youngC
  have hd : 0 ≤ d := hc.trans h.le
  rw [div_lt_div_iff₀ (young_den hd) (young_den hc), ← sub_pos]
  have e : (1.002432 * c ^ 2 + 0.148386 * c + 0.0096467) * (d ^ 3 + 0.149864 * d ^ 2 + 0.0102963 * d + 0.000303978) -
      (1.002432 * d ^ 2 + 0.148386 * d + 0.0096467) * (c ^ 3 + 0.149864 * c ^ 2 + 0.0102963 * c + 0.000303978) =
      (d - c) * ((0.0096467 * 0.0102963 - 0.148386 * 0.000303978) + (0.0096467 * 0.149864 - 1.002432 * 0.000303978) * (c + d) +
        0.0096467 * (c ^ 2 + c * d + d ^ 2) + (0.148386 * 0.149864 - 1.002432 * 0.0102963) * (c * d) + 0.148386 * (c * d * (c + d)) +
        1.002432 * (c ^ 2 * d ^ 2)) := by ring
  rw [e]
  apply mul_pos (sub_pos.mpr h)
  have p1 : (0 : ℝ) < 0.0096467 * 0.0102963 - 0.148386 * 0.000303978 := by norm_num
  have p2 : 0 ≤ ((0.0096467 * 0.149864 - 1.002432 * 0.000303978 : ℝ)) * (c + d) := mul_nonneg (by norm_num) (by linarith)
  have p3 : 0 ≤ 0.0096467 * (c ^ 2 + c * d + d ^ 2) := by positivity
  have p4 : 0 ≤ ((0.148386 * 0.149864 - 1.002432 * 0.0102963 : ℝ)) * (c * d) := mul_nonneg (by norm_num) (mul_nonneg hc hd)
  have p5 : 0 ≤ 0.148386 * (c * d * (c + d)) := by positivity
  have p6 : 0 ≤ 1.002432 * (c ^ 2 * d ^ 2) := by positivity
  linarith

noncomputable def rozC (c : ℝ) : ℝ := c + 0.025 * exp (-11 * c)

theorem roz_eq (z : ℝ) : rozenberg z = 1 / rozC (cos z) := rfl

theorem roz_pos {c : ℝ} (h : 0 ≤ c) : 0 < rozC c := by unfold rozC; positivity

/-- The Rozenberg denominator grows: its slope is at least `1 - 0.275`. -/
theorem roz_mono {c d : ℝ} (hc : 0 ≤ c) (h : c < d) : rozC c < rozC d := by
  unfold rozC
  have e : exp (-11 * d) = exp (-11 * c) * exp (-(11 * (d - c))) := by rw [← exp_add]; congr 1; ring
  have h1 : 1 - 11 * (d - c) ≤ exp (-(11 * (d - c))) := by have := add_one_le_exp (-(11 * (d - c))); linarith
  have h2 : exp (-11 * c) ≤ 1 := exp_le_one_iff.mpr (by linarith)
  have h3 : 0 < exp (-11 * c) := exp_pos _
  have h4 : exp (-11 * c) * (1 - 11 * (d - c)) ≤ exp (-11 * d) := by rw [e]; exact mul_le_mul_of_nonneg_left h1 h3.le
  have h5 : exp (-11 * c) * (11 * (d - c)) ≤ 1 * (11 * (d - c)) := mul_le_mul_of_nonneg_right h2 (by linarith)
  linarith

noncomputable def ksC (c : ℝ) : ℝ := 0.04 + 0.96 * c ^ 2

theorem ks_eq (z : ℝ) : krisciunasSchaefer z = 1 / sqrt (ksC (cos z)) := by
  unfold krisciunasSchaefer ksC
  have e : (1 : ℝ) - 0.96 * sin z * sin z = 0.04 + 0.96 * cos z ^ 2 := by
    have := sin_sq_add_cos_sq z
    linear_combination (-0.96 : ℝ) * this
  dsimp only
  rw [e, show (-0.5 : ℝ) = -(1 / 2) by norm_num, rpow_neg (by positivity), ← sqrt_eq_rpow, one_div]

theorem ks_pos (c : ℝ) : 0 < ksC c := by unfold ksC; positivity

/-- C136. Every formula: the air mass grows strictly from the zenith to the horizon (to just before it for `sec z`). -/
theorem airmass_grows (f : Formula) {z w : ℝ} (hz : 0 ≤ z) (h : z < w) (hw : w < π / 2) : airmass f z < airmass f w := by
  have hc : cos w < cos z := cos_lt_cos_of_nonneg_of_le_pi hz (by linarith [pi_pos]) h
  have hcw : 0 < cos w := cos_pos_of_mem_Ioo ⟨by linarith [pi_pos], hw⟩
  cases f with
  | planeParallel =>
    show 1 / cos z < 1 / cos w
    exact one_div_lt_one_div_of_lt hcw hc
  | young =>
    show young z < young w
    rw [young_eq, young_eq]
    exact young_anti hcw.le hc
  | rozenberg =>
    show rozenberg z < rozenberg w
    rw [roz_eq, roz_eq]
    exact one_div_lt_one_div_of_lt (roz_pos hcw.le) (roz_mono hcw.le hc)
  | krisciunasSchaefer =>
    show krisciunasSchaefer z < krisciunasSchaefer w
    rw [ks_eq, ks_eq]
    apply one_div_lt_one_div_of_lt (sqrt_pos.mpr (ks_pos _))
    apply sqrt_lt_sqrt (ks_pos _).le
    unfold ksC
    have : cos w ^ 2 < cos z ^ 2 := by apply pow_lt_pow_left₀ hc hcw.le (by norm_num)
    linarith

theorem exp_neg_eleven : exp (-11) < 0.0001 := by
  have h1 : (2.7 : ℝ) < exp 1 := by have := exp_one_gt_d9; linarith
  have h2 : exp 11 = exp 1 ^ 11 := by rw [← exp_nat_mul]; norm_num
  have h3 : (10000 : ℝ) < exp 11 := by
    rw [h2]
    calc (10000 : ℝ) < 2.7 ^ 11 := by norm_num
      _ < exp 1 ^ 11 := pow_lt_pow_left₀ h1 (by norm_num) (by norm_num)
  rw [exp_neg, inv_lt_comm₀ (exp_pos _) (by norm_num)]
  norm_num
  exact h3

/-- C136. At the zenith the air mass is one, to a few millionths. -/
theorem airmass_zenith (f : Formula) : |airmass f 0 - 1| < 0.000003 := by
  cases f with
  | planeParallel => show |planeParallel 0 - 1| < _; simp [planeParallel]; norm_num
  | young => show |young 0 - 1| < _; rw [young_eq, cos_zero]; unfold youngC; norm_num
  | rozenberg =>
    show |rozenberg 0 - 1| < _
    rw [roz_eq, cos_zero]
    unfold rozC
    have h := exp_neg_eleven
    have h0 := exp_pos (-11 : ℝ)
    rw [show (-11 : ℝ) * 1 = -11 by norm_num]
    generalize exp (-11) = e at h h0
    have hp : 0 < 1 + 0.025 * e := by positivity
    rw [show 1 / (1 + 0.025 * e) - 1 = -(0.025 * e / (1 + 0.025 * e)) by field_simp; ring, abs_neg, abs_of_pos (by positivity),
      div_lt_iff₀ hp]
    nlinarith
  | krisciunasSchaefer => show |krisciunasSchaefer 0 - 1| < _; rw [ks_eq, cos_zero]; unfold ksC; norm_num

/-- C136. Exactly one at the zenith for the plane-parallel and the default formula. -/
theorem airmass_zenith_exact : airmass .planeParallel 0 = 1 ∧ airmass defaultFormula 0 = 1 := by
  constructor
  · show planeParallel 0 = 1; simp [planeParallel]
  · show krisciunasSchaefer 0 = 1; rw [ks_eq, cos_zero]; unfold ksC; norm_num

/-- C136. Values at the horizon: 5 (Krisciunas and Schaefer), 40 (Rozenberg), between 31.7 and 31.8 (Young). -/
theorem airmass_horizon : airmass .krisciunasSchaefer (π / 2) = 5 ∧ airmass .rozenberg (π / 2) = 40 ∧
    31.7 < airmass .young (π / 2) ∧ airmass .young (π / 2) < 31.8 := by
  refine ⟨?_, ?_, ?_⟩
  · show krisciunasSchaefer (π / 2) = 5
    rw [ks_eq, cos_pi_div_two]
    unfold ksC
    rw [show (0.04 : ℝ) + 0.96 * 0 ^ 2 = 0.2 ^ 2 by norm_num, sqrt_sq (by norm_num)]
    norm_num
  · show rozenberg (π / 2) = 40
    rw [roz_eq, cos_pi_div_two]
    unfold rozC
    norm_num
  · show 31.7 < young (π / 2) ∧ young (π / 2) < 31.8
    rw [young_eq, cos_pi_div_two]
    unfold youngC
    norm_num

/-- C136. No formula exceeds the secant (Young's by less than a millionth), down to the horizon. -/
theorem airmass_le_secant (f : Formula) {z : ℝ} (hz : 0 < cos z) : airmass f z ≤ 1.000001 / cos z := by
  have h1 := cos_le_one z
  cases f with
  | planeParallel => show 1 / cos z ≤ _; gcongr; norm_num
  | young =>
    show young z ≤ _
    rw [young_eq]
    unfold youngC
    generalize cos z = c at *
    rw [div_le_div_iff₀ (young_den hz.le) hz]
    have a1 : c ^ 3 ≤ c := by nlinarith [mul_nonneg hz.le (sub_nonneg.mpr h1), sq_nonneg c]
    nlinarith [mul_nonneg hz.le (sub_nonneg.mpr h1), mul_nonneg (mul_nonneg hz.le hz.le) (sub_nonneg.mpr h1),
      mul_nonneg hz.le (sq_nonneg (c - 1)), sq_nonneg (c - 1)]
  | rozenberg =>
    show rozenberg z ≤ _
    rw [roz_eq]
    calc 1 / rozC (cos z) ≤ 1 / cos z := by
          apply one_div_le_one_div_of_le hz
          unfold rozC
          have := exp_pos (-11 * cos z)
          linarith
      _ ≤ 1.000001 / cos z := by gcongr; norm_num
  | krisciunasSchaefer =>
    show krisciunasSchaefer z ≤ _
    rw [ks_eq]
    calc 1 / sqrt (ksC (cos z)) ≤ 1 / cos z := by
          apply one_div_le_one_div_of_le hz
          apply le_sqrt_of_sq_le
          unfold ksC
          nlinarith
      _ ≤ 1.000001 / cos z := by gcongr; norm_num

/-- C136. Within sixty degrees of the zenith every formula is within six per cent of the secant; Young's and
Rozenberg's within half a per cent. -/
theorem airmass_near_secant {z : ℝ} (hz : 1 / 2 ≤ cos z) :
    0.94 / cos z ≤ airmass .krisciunasSchaefer z ∧ 0.995 / cos z ≤ airmass .young z ∧ 0.995 / cos z ≤ airmass .rozenberg z := by
  have h1 := cos_le_one z
  have hp : 0 < cos z := by linarith
  refine ⟨?_, ?_, ?_⟩
  · show _ ≤ krisciunasSchaefer z
    rw [ks_eq, div_le_div_iff₀ hp (sqrt_pos.mpr (ks_pos _))]
    have : sqrt (ksC (cos z)) ≤ cos z / 0.94 := by
      rw [sqrt_le_left (by positivity)]
      unfold ksC
      rw [div_pow, le_div_iff₀ (by norm_num)]
      nlinarith
    rw [le_div_iff₀ (by norm_num)] at this
    linarith
  · show _ ≤ young z
    rw [young_eq]
    unfold youngC
    generalize cos z = c at *
    rw [div_le_div_iff₀ hp (young_den hp.le)]
    nlinarith [mul_nonneg (sub_nonneg.mpr hz) (sub_nonneg.mpr h1), mul_nonneg hp.le (sub_nonneg.mpr hz), mul_nonneg (mul_nonneg hp.le hp.le) (sub_nonneg.mpr hz)]
  · show _ ≤ rozenberg z
    rw [roz_eq]
    unfold rozC
    have he : exp (-11 * cos z) ≤ 0.02 := by
      have h2 : exp (-11 * cos z) ≤ exp (-(5 : ℝ)) := exp_le_exp.mpr (by linarith)
      have h3 : exp (-(5 : ℝ)) ≤ 0.02 := by
        have h1 : (2.7 : ℝ) < exp 1 := by have := exp_one_gt_d9; linarith
        have h4 : exp 5 = exp 1 ^ 5 := by rw [← exp_nat_mul]; norm_num
        have h5 : (50 : ℝ) ≤ exp 5 := by
          rw [h4]
          calc (50 : ℝ) ≤ 2.7 ^ 5 := by norm_num
            _ ≤ exp 1 ^ 5 := pow_le_pow_left₀ (by norm_num) h1.le _
        rw [exp_neg, inv_le_comm₀ (exp_pos _) (by norm_num)]
        norm_num
        exact h5
      exact h2.trans h3
    have h0 := exp_pos (-11 * cos z)
    rw [div_le_div_iff₀ hp (by positivity)]
    linarith

/-- C136, finding. Nothing keeps the formulas above the horizon: the default formula gives an object below the
horizon the air mass of its mirror image above, and the plane-parallel one a negative air mass. -/
theorem airmass_below_horizon {z : ℝ} (h0 : π / 2 < z) (h1 : z ≤ π) :
    airmass defaultFormula z = airmass defaultFormula (π - z) ∧ airmass .planeParallel z < 0 := by
  constructor
  · show krisciunasSchaefer z = krisciunasSchaefer (π - z)
    rw [ks_eq, ks_eq, cos_pi_sub]
    unfold ksC
    rw [neg_sq]
  · show 1 / cos z < 0
    exact div_neg_of_pos_of_neg one_pos (cos_neg_of_pi_div_two_lt_of_lt h0 (by linarith [pi_pos]))

example : (0 : ℝ) ≤ 1 / 2 ∧ (1 / 2 : ℝ) < 1 ∧ 1 < π / 2 := ⟨by norm_num, by norm_num, by linarith [pi_gt_three]⟩
example : (1 : ℝ) / 2 ≤ cos (π / 3) := by rw [cos_pi_div_three]
example : π / 2 < 2 ∧ (2 : ℝ) ≤ π := ⟨by linarith [pi_lt_four], by linarith [pi_gt_three]⟩

/-! ### C137: extinction and optical depth -/

/-- C137. The transmission is a fraction, all light passing only without a path or a medium. -/
theorem transmission_fraction {tau x : ℝ} (ht : 0 ≤ tau) (hx : 0 ≤ x) :
    0 < transmission tau x ∧ transmission tau x ≤ 1 ∧ (transmission tau x = 1 ↔ tau = 0 ∨ x = 0) := by
  unfold transmission
  refine ⟨exp_pos _, exp_le_one_iff.mpr (by nlinarith [mul_nonneg ht hx]), ?_⟩
  rw [exp_eq_one_iff, neg_mul, neg_eq_zero, mul_eq_zero]

/-- C137. Media one behind the other, and stretches of path one after the other, multiply their transmissions. -/
theorem transmission_composes (t1 t2 x1 x2 : ℝ) :
    transmission (t1 + t2) x1 = transmission t1 x1 * transmission t2 x1 ∧
    transmission t1 (x1 + x2) = transmission t1 x1 * transmission t1 x2 := by
  unfold transmission
  constructor <;> (rw [← exp_add]; congr 1; ring)

/-- C137. In magnitudes the extinction is proportional to air mass, with coefficient `2.5 τ / ln 10` (Bouguer). -/
theorem transmission_magnitudes (tau x : ℝ) : -2.5 * logb 10 (transmission tau x) = 2.5 / log 10 * tau * x := by
  unfold transmission logb
  rw [log_exp]
  ring

/-- C137. With a positive optical depth, the light of a star falls steadily from the zenith to the horizon, whatever
the air mass formula. -/
theorem transmission_falls (f : Formula) {tau z w : ℝ} (ht : 0 < tau) (hz : 0 ≤ z) (h : z < w) (hw : w < π / 2) :
    transmission tau (airmass f w) < transmission tau (airmass f z) := by
  unfold transmission
  apply exp_lt_exp.mpr
  have := mul_lt_mul_of_pos_left (airmass_grows f hz h hw) ht
  linarith

/-- The Bodhaine quotient with both parts of positive sign, `x` the square of the wavelength. -/
noncomputable def bodhaine (x : ℝ) : ℝ := 0.0021520 * ((341.29061 + 0.90230850 * x ^ 2 - 1.0455996 * x) / (85.968563 * x ^ 2 - x - 0.0027059889))

theorem tauSea_eq {um : ℝ} (h : 0 < um) : tauSea um = bodhaine (um ^ 2) := by
  unfold tauSea bodhaine
  dsimp only
  have hx : um ^ 2 ≠ 0 := by positivity
  rw [show um * um = um ^ 2 by ring]
  generalize um ^ 2 = x at hx
  have e1 : (1.0455996 - 341.29061 * (1 / x) - 0.90230850 * x : ℝ) = -(341.29061 + 0.90230850 * x ^ 2 - 1.0455996 * x) / x := by
    field_simp
    ring
  have e2 : (1 + 0.0027059889 * (1 / x) - 85.968563 * x : ℝ) = -(85.968563 * x ^ 2 - x - 0.0027059889) / x := by
    field_simp
    ring
  rw [e1, e2, mul_div_assoc, div_div_div_cancel_right₀ hx, neg_div_neg_eq]

theorem bodhaine_num (x : ℝ) : 0 < 341.29061 + 0.90230850 * x ^ 2 - 1.0455996 * x := by nlinarith [sq_nonneg (x - 1)]

theorem bodhaine_den {x : ℝ} (h : 0.0144 ≤ x) : 0 < 85.968563 * x ^ 2 - x - 0.0027059889 := by nlinarith

theorem tauSea_pos {um : ℝ} (h : 0.12 ≤ um) : 0 < tauSea um := by
  rw [tauSea_eq (by linarith)]
  have hx : (0.0144 : ℝ) ≤ um ^ 2 := by nlinarith
  unfold bodhaine
  have := div_pos (bodhaine_num (um ^ 2)) (bodhaine_den hx)
  linarith

/-- C137. From 120 nm on the Rayleigh depth of an atmosphere with pressure is positive. -/
theorem rayleigh_pos {nm p : ℝ} (h : 120 ≤ nm) (hp : 0 < p) (alt scale : ℝ) : 0 < rayleigh nm p alt scale := by
  unfold rayleigh
  have h1 : 0 < tauSea (nm / 1000) := tauSea_pos (by rw [le_div_iff₀ (by norm_num)]; linarith)
  have h2 := exp_pos (-alt / scale)
  dsimp only
  positivity

/-- C137. Red light is scattered less: from 120 nm to 4 micrometres the Rayleigh depth falls strictly with wavelength. -/
theorem rayleigh_falls {a b p : ℝ} (h0 : 120 ≤ a) (h : a < b) (h1 : b ≤ 4000) (hp : 0 < p) (alt scale : ℝ) :
    rayleigh b p alt scale < rayleigh a p alt scale := by
  have key : tauSea (b / 1000) < tauSea (a / 1000) := by
    rw [tauSea_eq (div_pos (by linarith) (by norm_num)), tauSea_eq (div_pos (by linarith) (by norm_num))]
    have ha : (0.12 : ℝ) ≤ a / 1000 := by rw [le_div_iff₀ (by norm_num)]; linarith
    have hb : b / 1000 ≤ 4 := by rw [div_le_iff₀ (by norm_num)]; linarith
    have hab : a / 1000 < b / 1000 := by gcongr
    generalize a / 1000 = u at *
    generalize b / 1000 = v at *
    have hx : (0.0144 : ℝ) ≤ u ^ 2 := by nlinarith
    have hxy : u ^ 2 < v ^ 2 := by nlinarith
    have hy : v ^ 2 ≤ 16 := by nlinarith
    generalize u ^ 2 = x at *
    generalize v ^ 2 = y at *
    unfold bodhaine
    apply mul_lt_mul_of_pos_left _ (by norm_num)
    rw [div_lt_div_iff₀ (bodhaine_den (by linarith)) (bodhaine_den hx), ← sub_pos]
    have e : (341.29061 + 0.90230850 * x ^ 2 - 1.0455996 * x) * (85.968563 * y ^ 2 - y - 0.0027059889) -
        (341.29061 + 0.90230850 * y ^ 2 - 1.0455996 * y) * (85.968563 * x ^ 2 - x - 0.0027059889) =
        (y - x) * (341.29061 * (85.968563 * (x + y) - 1) + 0.0027059889 * (0.90230850 * (x + y) - 1.0455996) - (1.0455996 * 85.968563 - 0.90230850) * (x * y)) := by
      ring
    rw [e]
    apply mul_pos (sub_pos.mpr hxy)
    nlinarith [mul_nonneg (sub_nonneg.mpr hx) (sub_nonneg.mpr hy)]
  unfold rayleigh
  have h2 := exp_pos (-alt / scale)
  dsimp only
  have h3 : 0 < p / 1013.25 := by positivity
  exact mul_lt_mul_of_pos_right (mul_lt_mul_of_pos_left key h3) h2

/-- C137. Rayleigh's law: from 350 nm to 1 micrometre the sea-level depth is `λ⁻⁴` times a factor between 0.0084 and
0.0095 (wavelength in micrometres). -/
theorem rayleigh_law {um : ℝ} (h0 : 0.35 ≤ um) (h1 : um ≤ 1) (scale : ℝ) :
    0.0084 < rayleigh (1000 * um) 1013.25 0 scale * um ^ 4 ∧ rayleigh (1000 * um) 1013.25 0 scale * um ^ 4 < 0.0095 := by
  have e : rayleigh (1000 * um) 1013.25 0 scale = bodhaine (um ^ 2) := by
    unfold rayleigh
    dsimp only
    rw [mul_div_cancel_left₀ _ (by norm_num), tauSea_eq (by linarith), neg_zero, zero_div, exp_zero]
    norm_num
  rw [e]
  have hx : (0.1225 : ℝ) ≤ um ^ 2 := by nlinarith
  have hy : um ^ 2 ≤ 1 := by nlinarith
  rw [show um ^ 4 = (um ^ 2) ^ 2 by ring]
  generalize um ^ 2 = x at *
  unfold bodhaine
  have hd := bodhaine_den (x := x) (by linarith)
  rw [mul_div_assoc', div_mul_eq_mul_div, lt_div_iff₀ hd, div_lt_iff₀ hd]
  constructor
  · nlinarith [sq_nonneg x, mul_nonneg (sub_nonneg.mpr hx) (sub_nonneg.mpr hy), mul_nonneg (mul_nonneg (sub_nonneg.mpr hx) (sub_nonneg.mpr hy)) (sub_nonneg.mpr hy)]
  · nlinarith [sq_nonneg x, mul_nonneg (sub_nonneg.mpr hx) (sub_nonneg.mpr hy), sq_nonneg (x * x), mul_nonneg (mul_nonneg (sub_nonneg.mpr hx) (sub_nonneg.mpr hy)) (sub_nonneg.mpr hx)]

/-- C137, finding. Below its pole near 118 nm the quotient changes sign: the depth is negative, and the "transmission"
exceeds one. -/
theorem rayleigh_negative {nm p x : ℝ} (h0 : 0 < nm) (h : nm ≤ 115) (hp : 0 < p) (hx : 0 < x) (alt scale : ℝ) :
    rayleigh nm p alt scale < 0 ∧ 1 < transmission (rayleigh nm p alt scale) x := by
  have key : tauSea (nm / 1000) < 0 := by
    rw [tauSea_eq (by positivity)]
    have hu : nm / 1000 ≤ 0.115 := by rw [div_le_iff₀ (by norm_num)]; linarith
    have hu0 : 0 < nm / 1000 := by positivity
    generalize nm / 1000 = u at *
    have hx2 : u ^ 2 ≤ 0.013225 := by nlinarith
    have hx0 : 0 < u ^ 2 := by positivity
    generalize u ^ 2 = y at *
    unfold bodhaine
    have : (341.29061 + 0.90230850 * y ^ 2 - 1.0455996 * y) / (85.968563 * y ^ 2 - y - 0.0027059889) < 0 :=
      div_neg_of_pos_of_neg (bodhaine_num y) (by nlinarith)
    linarith
  have hneg : rayleigh nm p alt scale < 0 := by
    unfold rayleigh
    dsimp only
    have h3 : 0 < p / 1013.25 := by positivity
    exact mul_neg_of_neg_of_pos (mul_neg_of_pos_of_neg h3 key) (exp_pos _)
  refine ⟨hneg, ?_⟩
  unfold transmission
  apply one_lt_exp_iff.mpr
  nlinarith

/-- C137, finding. The altitude is taken off twice. Where the pressure follows the same exponential atmosphere,
`p = 1013.25 exp(-h/H)`, the column above the observer is `exp(-h/H)` of the sea-level column, but the result is
`exp(-2h/H)` of the sea-level depth. -/
theorem altitude_twice (nm h scale : ℝ) :
    rayleigh nm (1013.25 * exp (-h / scale)) h scale = exp (-h / scale) ^ 2 * rayleigh nm 1013.25 0 scale := by
  unfold rayleigh
  dsimp only
  rw [mul_div_cancel_left₀ _ (by norm_num), neg_zero, zero_div, exp_zero, div_self (by norm_num)]
  ring

/-- C137, finding. For Paranal, with the pressure measured there, the depth is less than three quarters of what that pressure
means. -/
theorem paranal_too_clear {nm : ℝ} (h : 120 ≤ nm) :
    rayleigh nm elParanal.pressure elParanal.altitude elParanal.scale < 0.75 * rayleigh nm elParanal.pressure 0 elParanal.scale := by
  have h1 : 0 < tauSea (nm / 1000) := tauSea_pos (by rw [le_div_iff₀ (by norm_num)]; linarith)
  have h2 : exp (-2.635 / 8) < 0.75 := by
    have e : exp (-2.635 / 8) = (exp (2.635 / 8))⁻¹ := by rw [← exp_neg]; congr 1; ring
    have hq := quadratic_le_exp_of_nonneg (x := 2.635 / 8) (by norm_num)
    rw [e, inv_lt_comm₀ (exp_pos _) (by norm_num)]
    refine lt_of_lt_of_le ?_ hq
    norm_num
  unfold rayleigh elParanal
  dsimp only
  rw [neg_zero, zero_div, exp_zero]
  have h3 : (0 : ℝ) < 744 / 1013.25 * tauSea (nm / 1000) := by positivity
  nlinarith

/-- C137. The aerosol depth is the reference depth at the reference wavelength and scales by the power law between any two
wavelengths. -/
theorem mie_law {p : Mie} (hr : 0 < p.lambdaRef) :
    mieDepth p p.lambdaRef = p.tau0 ∧
    ∀ {a b : ℝ}, 0 < a → 0 < b → mieDepth p b = mieDepth p a * (b / a) ^ p.alpha := by
  unfold mieDepth
  refine ⟨by rw [div_self hr.ne', one_rpow, mul_one], ?_⟩
  intro a b ha hb
  rw [mul_assoc, ← mul_rpow (by positivity) (by positivity)]
  congr 2
  field_simp

/-- C137. The depth of a site is the sum of the two, and its transmission the product of theirs. -/
theorem profile_splits (p : Profile) (nm x : ℝ) :
    p.transmission nm x = transmission (rayleigh nm p.pressure p.altitude p.scale) x * transmission (mieDepth p.mie nm) x :=
  (transmission_composes _ _ x 0).1

/-- C137. The four sites: at every wavelength from 120 nm, the transmission through any positive air mass is strictly between 0 and 1. -/
theorem preset_transmission {p : Profile} (hp : p = elParanal ∨ p = roque ∨ p = maunaKea ∨ p = laSilla) {nm x : ℝ} (h : 120 ≤ nm)
    (hx : 0 < x) : 0 < p.transmission nm x ∧ p.transmission nm x < 1 := by
  have hpp : 0 < p.pressure ∧ 0 < p.mie.tau0 ∧ 0 < p.mie.lambdaRef := by
    rcases hp with rfl | rfl | rfl | rfl <;> norm_num [elParanal, roque, maunaKea, laSilla]
  have hr := rayleigh_pos h hpp.1 p.altitude p.scale
  have hm : 0 < mieDepth p.mie nm := by
    unfold mieDepth
    have := rpow_pos_of_pos (div_pos (by linarith : 0 < nm) hpp.2.2) p.mie.alpha
    exact mul_pos hpp.2.1 this
  have hd : 0 < p.depth nm := add_pos hr hm
  refine ⟨exp_pos _, ?_⟩
  show exp _ < 1
  apply exp_lt_one_iff.mpr
  nlinarith [mul_pos hd hx]

/-- C137. The four sites' parameters as published beside them. -/
theorem preset_values :
    (elParanal.pressure = 744 ∧ elParanal.altitude = 2635 / 1000 ∧ mieDepth elParanal.mie 550 = 5 / 100) ∧
    (roque.pressure = 770 ∧ roque.altitude = 2396 / 1000 ∧ mieDepth roque.mie 550 = 2 / 100) ∧
    (maunaKea.pressure = 615 ∧ maunaKea.altitude = 4205 / 1000 ∧ mieDepth maunaKea.mie 550 = 3 / 100) ∧
    (laSilla.pressure = 770 ∧ laSilla.altitude = 2400 / 1000 ∧ mieDepth laSilla.mie 550 = 4 / 100) := by
  unfold elParanal roque maunaKea laSilla mieDepth
  norm_num

example : (120 : ℝ) ≤ 400 ∧ (400 : ℝ) < 700 ∧ (700 : ℝ) ≤ 4000 := by norm_num
example : (0 : ℝ) < 100 ∧ (100 : ℝ) ≤ 115 := by norm_num

/-! ### C138: airglow and scattering geometry -/

theorem inner_pos {r h : ℝ} (hh : 0 < h) (hr : 0 < r) (z : ℝ) : 0 < 1 - (r / (r + h) * sin z) ^ 2 := by
  have h1 : r / (r + h) < 1 := by rw [div_lt_one (by linarith)]; linarith
  have h0 : 0 < r / (r + h) := by positivity
  have hs := sin_sq_le_one z
  rw [mul_pow]
  nlinarith [sq_nonneg (sin z)]

theorem vanRhijn_num {z h r : ℝ} (hh : 0 < h) (hr : 0 < r) :
    vanRhijnWith (some z) (some h) (some r) = .num (1 / sqrt (1 - (r / (r + h) * sin z) ^ 2)) := by
  have hp := inner_pos hh hr z
  have e : (1 : ℝ) - r / (r + h) * sin z * (r / (r + h) * sin z) = 1 - (r / (r + h) * sin z) ^ 2 := by ring
  unfold vanRhijnWith
  dsimp only
  rw [if_neg (by push Not; exact ⟨hh, hr⟩), e, if_neg (not_le.mpr hp)]

/-- C138. The factor is a number exactly for finite arguments with positive height and radius, and never infinite. -/
theorem vanRhijn_domain (z h r : Option ℝ) :
    (∃ v, vanRhijnWith z h r = .num v) ↔ ∃ z' h' r', z = some z' ∧ h = some h' ∧ r = some r' ∧ 0 < h' ∧ 0 < r' := by
  constructor
  · rintro ⟨v, e⟩
    cases z with
    | none => simp [vanRhijnWith] at e
    | some z =>
      cases h with
      | none => simp [vanRhijnWith] at e
      | some h =>
        cases r with
        | none => simp [vanRhijnWith] at e
        | some r =>
          refine ⟨z, h, r, rfl, rfl, rfl, ?_⟩
          by_contra hc
          have : h ≤ 0 ∨ r ≤ 0 := by
            by_contra hd
            push Not at hd
            exact hc hd
          unfold vanRhijnWith at e
          dsimp only at e
          rw [if_pos this] at e
          cases e
  · rintro ⟨z', h', r', rfl, rfl, rfl, hh, hr⟩
    exact ⟨_, vanRhijn_num hh hr⟩

theorem vanRhijn_never_inf (z h r : Option ℝ) : vanRhijnWith z h r ≠ .inf := by
  intro e
  cases z with
  | none => simp [vanRhijnWith] at e
  | some z =>
    cases h with
    | none => simp [vanRhijnWith] at e
    | some h =>
      cases r with
      | none => simp [vanRhijnWith] at e
      | some r =>
        by_cases hc : h ≤ 0 ∨ r ≤ 0
        · unfold vanRhijnWith at e
          dsimp only at e
          rw [if_pos hc] at e
          cases e
        · push Not at hc
          rw [vanRhijn_num hc.1 hc.2] at e
          cases e

section
variable {E : Type} [NormedAddCommGroup E] [InnerProductSpace ℝ E]

/-- C138. The geometry: an observer at `o` on the sphere of radius `r` looks in the direction `u` at zenith distance `z`; the
line of sight meets the layer, the sphere of radius `r + h`, at `o + t u`. The factor is the reciprocal of the cosine of the
angle at which it crosses the layer. -/
theorem vanRhijn_crossing {r h z t : ℝ} (hr : 0 < r) (hh : 0 < h) {o u : E} (ho : ‖o‖ = r) (hu : ‖u‖ = 1)
    (hz : inner ℝ o u = r * cos z) (ht : 0 ≤ t) (hp : ‖o + t • u‖ = r + h) :
    ∃ v, vanRhijnWith (some z) (some h) (some r) = .num v ∧ v * inner ℝ (o + t • u) u = ‖o + t • u‖ := by
  refine ⟨_, vanRhijn_num hh hr, ?_⟩
  have hin : inner ℝ (o + t • u) u = r * cos z + t := by
    rw [inner_add_left, inner_smul_left, hz, real_inner_self_eq_norm_sq, hu]
    simp
  have hsq : (r + h) ^ 2 = r ^ 2 + 2 * (t * (r * cos z)) + t ^ 2 := by
    rw [← hp, norm_add_sq_real, inner_smul_right, hz, norm_smul, ho, hu]
    rw [norm_eq_abs, mul_one, sq_abs]
  have hpos : 0 < r * cos z + t := by
    by_contra hc
    push Not at hc
    nlinarith [mul_nonneg ht (by linarith : 0 ≤ -(r * cos z + t))]
  have hin2 : 1 - (r / (r + h) * sin z) ^ 2 = ((r * cos z + t) / (r + h)) ^ 2 := by
    have hne : r + h ≠ 0 := by positivity
    have := sin_sq_add_cos_sq z
    field_simp
    linear_combination hsq - r ^ 2 * this
  rw [hin, hin2, sqrt_sq (by positivity), hp]
  field_simp
end

/-- Length of the line of sight at zenith distance `z` from the surface to the sphere at height `h`. -/
noncomputable def pathTo (r z h : ℝ) : ℝ := sqrt ((r + h) ^ 2 - (r * sin z) ^ 2) - r * cos z

/-- C138. The factor is the path length per unit of layer thickness: the derivative of the path to height `h`. -/
theorem vanRhijn_path {r h : ℝ} (hr : 0 < r) (hh : 0 < h) (z : ℝ) :
    ∃ v, vanRhijnWith (some z) (some h) (some r) = .num v ∧ HasDerivAt (pathTo r z) v h := by
  refine ⟨_, vanRhijn_num hh hr, ?_⟩
  have hp := inner_pos hh hr z
  have hne : r + h ≠ 0 := by positivity
  have hin : (r + h) ^ 2 - (r * sin z) ^ 2 = (r + h) ^ 2 * (1 - (r / (r + h) * sin z) ^ 2) := by field_simp
  have hin0 : (r + h) ^ 2 - (r * sin z) ^ 2 ≠ 0 := by rw [hin]; positivity
  have hd : HasDerivAt (fun h => (r + h) ^ 2 - (r * sin z) ^ 2) (2 * (r + h)) h := by
    have := (((hasDerivAt_id h).const_add r).pow 2).sub_const ((r * sin z) ^ 2)
    simpa using this
  have := (hd.sqrt hin0).sub_const (r * cos z)
  refine this.congr_deriv ?_
  rw [hin, sqrt_mul (by positivity), sqrt_sq (by positivity)]
  have hs : sqrt (1 - (r / (r + h) * sin z) ^ 2) ≠ 0 := (sqrt_pos.mpr hp).ne'
  field_simp

/-- C138. The path does end on the layer. -/
theorem pathTo_ends {r h : ℝ} (hr : 0 < r) (hh : 0 < h) (z : ℝ) :
    0 < pathTo r z h ∧ (r * sin z) ^ 2 + (r * cos z + pathTo r z h) ^ 2 = (r + h) ^ 2 := by
  have hs := sin_sq_le_one z
  have hsc := sin_sq_add_cos_sq z
  have hpos : 0 ≤ (r + h) ^ 2 - (r * sin z) ^ 2 := by rw [mul_pow]; nlinarith [sq_nonneg r]
  constructor
  · unfold pathTo
    rw [sub_pos]
    apply lt_sqrt_of_sq_lt
    have : (r * cos z) ^ 2 = r ^ 2 - (r * sin z) ^ 2 := by linear_combination r ^ 2 * hsc
    rw [this]
    nlinarith
  · unfold pathTo
    rw [add_sub_cancel, sq_sqrt hpos]
    ring

/-- C138. One at the zenith, growing to the horizon, below the secant, and finite at the horizon. -/
theorem vanRhijn_shape {r h : ℝ} (hr : 0 < r) (hh : 0 < h) :
    vanRhijnWith (some 0) (some h) (some r) = .num 1 ∧
    (∀ z, 0 < cos z → ∃ v, vanRhijnWith (some z) (some h) (some r) = .num v ∧ 1 ≤ v ∧ v ≤ 1 / cos z) ∧
    (∀ z w, 0 ≤ z → z < w → w ≤ π / 2 → ∃ v v', vanRhijnWith (some z) (some h) (some r) = .num v ∧
      vanRhijnWith (some w) (some h) (some r) = .num v' ∧ v < v') ∧
    vanRhijnWith (some (π / 2)) (some h) (some r) = .num ((r + h) / sqrt (2 * r * h + h ^ 2)) := by
  have h1 : r / (r + h) < 1 := by rw [div_lt_one (by linarith)]; linarith
  have h0 : 0 < r / (r + h) := by positivity
  refine ⟨?_, ?_, ?_, ?_⟩
  · rw [vanRhijn_num hh hr]
    simp
  · intro z hz
    refine ⟨_, vanRhijn_num hh hr, ?_, ?_⟩
    · rw [le_div_iff₀ (sqrt_pos.mpr (inner_pos hh hr z)), one_mul]
      have := sq_nonneg (r / (r + h) * sin z)
      exact sqrt_le_iff.mpr ⟨zero_le_one, by linarith⟩
    · apply one_div_le_one_div_of_le hz
      apply le_sqrt_of_sq_le
      have := sin_sq_add_cos_sq z
      rw [mul_pow]
      have h2 : (r / (r + h)) ^ 2 ≤ 1 := by nlinarith
      nlinarith [sq_nonneg (sin z)]
  · intro z w hz h hw
    refine ⟨_, _, vanRhijn_num hh hr, vanRhijn_num hh hr, ?_⟩
    apply one_div_lt_one_div_of_lt (sqrt_pos.mpr (inner_pos hh hr w))
    apply sqrt_lt_sqrt (inner_pos hh hr w).le
    have hs : sin z < sin w := sin_lt_sin_of_lt_of_le_pi_div_two (by linarith [pi_pos]) hw h
    have hz0 : 0 ≤ sin z := sin_nonneg_of_nonneg_of_le_pi hz (by linarith [pi_pos])
    have : (r / (r + _) * sin z) ^ 2 < (r / (r + _) * sin w) ^ 2 :=
      pow_lt_pow_left₀ (mul_lt_mul_of_pos_left hs h0) (by positivity) (by norm_num)
    linarith
  · rw [vanRhijn_num hh hr, sin_pi_div_two, mul_one]
    congr 1
    have hne : r + h ≠ 0 := by positivity
    have e : 1 - (r / (r + h)) ^ 2 = (2 * r * h + h ^ 2) / (r + h) ^ 2 := by field_simp; ring
    rw [e, sqrt_div (by positivity), sqrt_sq (by positivity), one_div_div]

/-- C138. The Earth's layer is taken at a radius of 6371 km. -/
theorem vanRhijn_earth {z h : ℝ} (hh : 0 < h) : vanRhijn (some z) (some h) = .num (1 / sqrt (1 - (6371 / (6371 + h) * sin z) ^ 2)) := by
  unfold vanRhijn
  rw [vanRhijn_num hh (by norm_num)]

/-- C138. The Rayleigh phase function is a probability per solid angle: over all directions it integrates to one. -/
theorem phase_normalised : ∫ θ in (0 : ℝ)..π, rayleighPhase θ * (2 * π * sin θ) = 1 := by
  have hd : ∀ θ ∈ Set.uIcc 0 π, HasDerivAt (fun θ => -(3 / 8) * (cos θ + cos θ ^ 3 / 3)) (rayleighPhase θ * (2 * π * sin θ)) θ := by
    intro θ _
    have h1 := hasDerivAt_cos θ
    have h2 := ((h1.add ((h1.pow 3).div_const 3)).const_mul (-(3 / 8) : ℝ))
    refine h2.congr_deriv ?_
    unfold rayleighPhase
    have : π ≠ 0 := pi_ne_zero
    dsimp only
    field_simp
    ring
  rw [intervalIntegral.integral_eq_sub_of_hasDerivAt hd]
  · rw [cos_pi, cos_zero]; norm_num
  · apply Continuous.intervalIntegrable
    unfold rayleighPhase
    fun_prop

/-- C138. It scatters forwards and backwards alike, twice as much as sideways, and its values lie between the two. -/
theorem phase_shape (θ : ℝ) : rayleighPhase (π - θ) = rayleighPhase θ ∧ rayleighPhase 0 = 2 * rayleighPhase (π / 2) ∧
    rayleighPhase (π / 2) ≤ rayleighPhase θ ∧ rayleighPhase θ ≤ rayleighPhase 0 := by
  have hp := pi_pos
  have hk : 0 < 3 / (16 * π) := by positivity
  have hc : cos θ * cos θ ≤ 1 := by nlinarith [cos_sq_le_one θ]
  unfold rayleighPhase
  dsimp only
  rw [cos_pi_sub, cos_zero, cos_pi_div_two]
  norm_num
  refine ⟨by ring, ?_, ?_⟩
  · have := mul_nonneg hk.le (mul_self_nonneg (cos θ))
    nlinarith
  · nlinarith

/-- The layer of the green line, at 97 km: an observer, looking along the horizon. -/
example : ∃ (o u : EuclideanSpace ℝ (Fin 2)) (t : ℝ), ‖o‖ = 6371 ∧ ‖u‖ = 1 ∧ inner ℝ o u = 6371 * cos (π / 2) ∧ 0 ≤ t ∧ ‖o + t • u‖ = 6371 + 97 := by
  refine ⟨!₂[6371, 0], !₂[0, 1], sqrt (6468 ^ 2 - 6371 ^ 2), ?_, ?_, ?_, sqrt_nonneg _, ?_⟩
  · rw [EuclideanSpace.norm_eq]; simp
  · rw [EuclideanSpace.norm_eq]; simp
  · rw [PiLp.inner_apply, cos_pi_div_two]; simp [Fin.sum_univ_two]
  · rw [EuclideanSpace.norm_eq]
    have : (0 : ℝ) ≤ 6468 ^ 2 - 6371 ^ 2 := by norm_num
    simp only [Fin.sum_univ_two, PiLp.add_apply, PiLp.smul_apply, norm_eq_abs, sq_abs]
    simp
    rw [sq_sqrt (by norm_num)]
    rw [show (6371 ^ 2 + (6468 ^ 2 - 6371 ^ 2) : ℝ) = 6468 ^ 2 by norm_num, sqrt_sq (by norm_num)]
    norm_num

end Verif.Atmosphere.Props
