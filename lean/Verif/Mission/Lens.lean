import Verif.Mission.Model
import Mathlib.MeasureTheory.Integral.IntervalIntegral.FundThmCalculus
import Mathlib.MeasureTheory.Measure.Lebesgue.VolumeOfBalls
import Mathlib.MeasureTheory.Measure.Lebesgue.Complex
import Mathlib.MeasureTheory.Measure.Prod
import Mathlib.Analysis.SpecialFunctions.Trigonometric.InverseDeriv

/-!
# The area common to two discs
-/

namespace Verif.Mission

open MeasureTheory Set

/-- Antiderivative of `2 √(r² − x²)`. -/
noncomputable def halfDisc (r x : ℝ) : ℝ := x * Real.sqrt (r ^ 2 - x ^ 2) + r ^ 2 * Real.arcsin (x / r)

theorem halfDisc_deriv {r x : ℝ} (hr : 0 < r) (h : x ∈ Ioo (-r) r) :
    HasDerivAt (halfDisc r) (2 * Real.sqrt (r ^ 2 - x ^ 2)) x := by
  have hp : 0 < r ^ 2 - x ^ 2 := by nlinarith [h.1, h.2]
  have hs := Real.sqrt_pos.mpr hp
  have hq : Real.sqrt (r ^ 2 - x ^ 2) ^ 2 = r ^ 2 - x ^ 2 := Real.sq_sqrt hp.le
  have h1 : HasDerivAt (fun y : ℝ => r ^ 2 - y ^ 2) (-(2 * x)) x := by
    have := (hasDerivAt_pow 2 x).const_sub (r ^ 2)
    refine this.congr_deriv ?_
    norm_num
  have h2 := h1.sqrt hp.ne'
  have h3 := (hasDerivAt_id x).mul h2
  have hn1 : x / r ≠ -1 := by
    intro he
    rw [div_eq_iff hr.ne'] at he
    linarith [h.1]
  have hn2 : x / r ≠ 1 := by
    intro he
    rw [div_eq_iff hr.ne'] at he
    linarith [h.2]
  have h4 : HasDerivAt (fun y : ℝ => Real.arcsin (y / r)) (1 / Real.sqrt (1 - (x / r) ^ 2) * (1 / r)) x :=
    HasDerivAt.comp (h₂ := Real.arcsin) (h := fun y : ℝ => y / r) x (Real.hasDerivAt_arcsin hn1 hn2)
      ((hasDerivAt_id x).div_const r)
  have h5 := h3.add (h4.const_mul (r ^ 2))
  refine h5.congr_deriv ?_
  have e : Real.sqrt (1 - (x / r) ^ 2) = Real.sqrt (r ^ 2 - x ^ 2) / r := by
    rw [show 1 - (x / r) ^ 2 = (r ^ 2 - x ^ 2) / r ^ 2 by field_simp, Real.sqrt_div hp.le, Real.sqrt_sq hr.le]
  rw [e]
  simp only [id]
  field_simp
  nlinarith

theorem halfDisc_continuous (r : ℝ) : Continuous (halfDisc r) := by
  unfold halfDisc
  fun_prop

theorem halfDisc_integral {r a b : ℝ} (hr : 0 < r) (ha : -r ≤ a) (hab : a ≤ b) (hb : b ≤ r) :
    ∫ x in a..b, 2 * Real.sqrt (r ^ 2 - x ^ 2) = halfDisc r b - halfDisc r a := by
  apply intervalIntegral.integral_eq_sub_of_hasDerivAt_of_le hab (halfDisc_continuous r).continuousOn
  · intro x hx
    exact halfDisc_deriv hr ⟨ha.trans_lt hx.1, hx.2.trans_le hb⟩
  · apply Continuous.intervalIntegrable
    fun_prop

/-- The length of the slice. -/
noncomputable def slice (r R d x : ℝ) : ℝ := 2 * Real.sqrt (min (r ^ 2 - x ^ 2) (R ^ 2 - (x - d) ^ 2))

theorem slice_measure (m : ℝ) : volume {y : ℝ | y ^ 2 ≤ m} = ENNReal.ofReal (2 * Real.sqrt m) := by
  by_cases h : 0 ≤ m
  · have : {y : ℝ | y ^ 2 ≤ m} = Icc (-Real.sqrt m) (Real.sqrt m) := by
      ext y
      rw [mem_setOf_eq, mem_Icc, ← abs_le, ← Real.sqrt_sq_eq_abs]
      constructor
      · exact fun hy => Real.sqrt_le_sqrt hy
      · intro hy
        exact (Real.sqrt_le_sqrt_iff h).mp hy
    rw [this, Real.volume_Icc]
    congr 1
    ring
  · have : {y : ℝ | y ^ 2 ≤ m} = ∅ := by
      ext y
      simp only [mem_setOf_eq, mem_empty_iff_false, iff_false, not_le]
      nlinarith [sq_nonneg y]
    rw [this, measure_empty, Real.sqrt_eq_zero_of_nonpos (by linarith)]
    simp

/-- The discs in coordinates. -/
def discs (r R d : ℝ) : Set (ℝ × ℝ) := {p | p.2 ^ 2 ≤ min (r ^ 2 - p.1 ^ 2) (R ^ 2 - (p.1 - d) ^ 2)}

theorem discs_measurable (r R d : ℝ) : MeasurableSet (discs r R d) := by
  apply measurableSet_le <;> fun_prop

theorem slice_integrable {r : ℝ} (R d : ℝ) (hr : 0 ≤ r) : Integrable (slice r R d) := by
  apply Continuous.integrable_of_hasCompactSupport
  · unfold slice
    fun_prop
  · apply HasCompactSupport.of_support_subset_isCompact (isCompact_Icc (a := -r) (b := r))
    intro x hx
    by_contra hn
    apply hx
    unfold slice
    rw [Real.sqrt_eq_zero_of_nonpos, mul_zero]
    refine (min_le_left _ _).trans ?_
    rw [mem_Icc, ← abs_le, not_le] at hn
    nlinarith [abs_nonneg x, sq_abs x]

theorem discs_volume {r : ℝ} (R d : ℝ) (hr : 0 ≤ r) :
    volume (discs r R d) = ENNReal.ofReal (∫ x, slice r R d x) := by
  rw [Measure.volume_eq_prod, Measure.prod_apply (discs_measurable r R d),
    ofReal_integral_eq_lintegral_ofReal (slice_integrable R d hr)
      (Filter.Eventually.of_forall fun x => by unfold slice; positivity)]
  apply lintegral_congr
  intro x
  exact slice_measure (min (r ^ 2 - x ^ 2) (R ^ 2 - (x - d) ^ 2))

/-- The area of the lens. -/
theorem slice_integral {r R d : ℝ} (hr : 0 < r) (hR : 0 < R) (hd : 0 < d) (h1 : d < r + R)
    (h2 : r < d + R) (h3 : R < d + r) :
    ∫ x, slice r R d x
      = r ^ 2 * Real.arccos ((d ^ 2 + r ^ 2 - R ^ 2) / (2 * d * r))
        + R ^ 2 * Real.arccos ((d ^ 2 + R ^ 2 - r ^ 2) / (2 * d * R))
        - 1 / 2 * Real.sqrt ((-d + r + R) * (d + r - R) * (d - r + R) * (d + r + R)) := by
  set x₀ := (d ^ 2 + r ^ 2 - R ^ 2) / (2 * d) with hx
  have hx' : 2 * d * x₀ = d ^ 2 + r ^ 2 - R ^ 2 := by rw [hx]; field_simp
  have l1 : -r < x₀ := by rw [hx, lt_div_iff₀ (by linarith)]; nlinarith
  have l2 : x₀ < r := by rw [hx, div_lt_iff₀ (by linarith)]; nlinarith
  have l3 : d - R < x₀ := by rw [hx, lt_div_iff₀ (by linarith)]; nlinarith
  have l4 : x₀ < d + R := by rw [hx, div_lt_iff₀ (by linarith)]; nlinarith
  have right : ∀ x, x₀ ≤ x → slice r R d x = 2 * Real.sqrt (r ^ 2 - x ^ 2) := by
    intro x hle
    unfold slice
    rw [min_eq_left]
    nlinarith
  have left : ∀ x, x ≤ x₀ → slice r R d x = 2 * Real.sqrt (R ^ 2 - (x - d) ^ 2) := by
    intro x hle
    unfold slice
    rw [min_eq_right]
    nlinarith
  have zero : ∀ x, x ∉ Ioc (d - R) r → slice r R d x = 0 := by
    intro x hn
    rw [mem_Ioc, not_and_or, not_lt, not_le] at hn
    rcases hn with hn | hn
    · rw [left x (by linarith), Real.sqrt_eq_zero_of_nonpos (by nlinarith), mul_zero]
    · rw [right x (by linarith), Real.sqrt_eq_zero_of_nonpos (by nlinarith), mul_zero]
  rw [← setIntegral_eq_integral_of_forall_compl_eq_zero (s := Ioc (d - R) r) zero,
    ← intervalIntegral.integral_of_le (by linarith)]
  have hi : ∀ a b, IntervalIntegrable (slice r R d) volume a b := fun a b =>
    (slice_integrable R d hr.le).intervalIntegrable
  rw [← intervalIntegral.integral_add_adjacent_intervals (hi (d - R) x₀) (hi x₀ r)]
  have i1 : ∫ x in (d - R)..x₀, slice r R d x = halfDisc R (x₀ - d) - halfDisc R (-R) := by
    rw [intervalIntegral.integral_congr (g := fun x => 2 * Real.sqrt (R ^ 2 - (x - d) ^ 2))]
    · rw [intervalIntegral.integral_comp_sub_right (fun x => 2 * Real.sqrt (R ^ 2 - x ^ 2)) d,
        show d - R - d = -R by ring]
      exact halfDisc_integral hR le_rfl (by linarith) (by linarith)
    · intro x hxm
      rw [uIcc_of_le l3.le, mem_Icc] at hxm
      exact left x hxm.2
  have i2 : ∫ x in x₀..r, slice r R d x = halfDisc r r - halfDisc r x₀ := by
    rw [intervalIntegral.integral_congr (g := fun x => 2 * Real.sqrt (r ^ 2 - x ^ 2))]
    · exact halfDisc_integral hr l1.le l2.le le_rfl
    · intro x hxm
      rw [uIcc_of_le l2.le, mem_Icc] at hxm
      exact right x hxm.1
  rw [i1, i2]
  unfold halfDisc
  have hh : R ^ 2 - (x₀ - d) ^ 2 = r ^ 2 - x₀ ^ 2 := by nlinarith
  have hpos : 0 < r ^ 2 - x₀ ^ 2 := by nlinarith
  have e1 : (d ^ 2 + r ^ 2 - R ^ 2) / (2 * d * r) = x₀ / r := by rw [hx]; field_simp
  have e2 : (d ^ 2 + R ^ 2 - r ^ 2) / (2 * d * R) = -((x₀ - d) / R) := by rw [hx]; field_simp; ring
  have e3 : Real.sqrt ((-d + r + R) * (d + r - R) * (d - r + R) * (d + r + R))
      = 2 * d * Real.sqrt (r ^ 2 - x₀ ^ 2) := by
    rw [show (-d + r + R) * (d + r - R) * (d - r + R) * (d + r + R) = (2 * d) ^ 2 * (r ^ 2 - x₀ ^ 2) by
      have : (2 * d) ^ 2 * (r ^ 2 - x₀ ^ 2) = (2 * d * r) ^ 2 - (2 * d * x₀) ^ 2 := by ring
      rw [this, hx']; ring]
    rw [Real.sqrt_mul (by positivity), Real.sqrt_sq (by linarith)]
  rw [hh, e1, e2, e3, Real.arccos_neg, Real.arccos_eq_pi_div_two_sub_arcsin,
    Real.arccos_eq_pi_div_two_sub_arcsin, div_self hr.ne', neg_div, div_self hR.ne', Real.arcsin_one,
    Real.arcsin_neg, Real.arcsin_one]
  have z1 : R ^ 2 - (-R) ^ 2 = 0 := by ring
  have z2 : r ^ 2 - r ^ 2 = 0 := by ring
  rw [z1, z2, Real.sqrt_zero]
  ring

/-- The discs of the complex plane. -/
theorem lens_volume (r R d : ℝ) (hr : 0 ≤ r) (hR : 0 ≤ R) :
    volume (Metric.closedBall (0 : ℂ) r ∩ Metric.closedBall (d : ℂ) R) = volume (discs r R d) := by
  rw [← Complex.volume_preserving_equiv_real_prod.measure_preimage
    (discs_measurable r R d).nullMeasurableSet]
  congr 1
  ext z
  have sq : ∀ {a b : ℝ}, 0 ≤ a → 0 ≤ b → (a ≤ b ↔ a ^ 2 ≤ b ^ 2) := fun ha hb =>
    (pow_le_pow_iff_left₀ ha hb two_ne_zero).symm
  simp only [mem_inter_iff, Metric.mem_closedBall, dist_eq_norm, sub_zero, mem_preimage, discs, mem_setOf_eq,
    le_min_iff]
  rw [sq (norm_nonneg _) hr, sq (norm_nonneg _) hR, ← Complex.normSq_eq_norm_sq, ← Complex.normSq_eq_norm_sq,
    Complex.normSq_apply, Complex.normSq_apply]
  simp only [Complex.measurableEquivRealProd_apply, Complex.sub_re, Complex.sub_im, Complex.ofReal_re,
    Complex.ofReal_im, sub_zero]
  constructor
  · rintro ⟨a, b⟩
    exact ⟨by nlinarith, by nlinarith⟩
  · rintro ⟨a, b⟩
    exact ⟨by nlinarith, by nlinarith⟩

end Verif.Mission
