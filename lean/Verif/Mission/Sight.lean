import Verif.Mission.Lens
import Verif.Mission.Spec

/-!
# Lines of sight and overlapping discs
-/

namespace Verif.Mission

open MeasureTheory Set

/-- The test decides whether the segment meets the closed ball. -/
theorem obstructed_iff (a b : Vec3) {r : ℝ} (hr : 0 ≤ r) :
    obstructed a b r = true ↔ Spec.Hidden a b 0 r := by
  have key : Spec.Hidden a b 0 r ↔ ∃ t : ℝ, 0 ≤ t ∧ t ≤ 1 ∧ ‖a + t • (b - a)‖ ^ 2 ≤ r ^ 2 := by
    unfold Spec.Hidden
    constructor
    · rintro ⟨x, hx, hd⟩
      rw [segment_eq_image'] at hx
      obtain ⟨t, ⟨h0, h1⟩, rfl⟩ := hx
      rw [dist_zero_right] at hd
      exact ⟨t, h0, h1, pow_le_pow_left₀ (norm_nonneg _) hd 2⟩
    · rintro ⟨t, h0, h1, h⟩
      refine ⟨a + t • (b - a), ?_, ?_⟩
      · rw [segment_eq_image']
        exact ⟨t, ⟨h0, h1⟩, rfl⟩
      · rw [dist_zero_right]
        exact (pow_le_pow_iff_left₀ (norm_nonneg _) hr two_ne_zero).mp h
  have expand : ∀ t : ℝ, ‖a + t • (b - a)‖ ^ 2
      = ‖b - a‖ ^ 2 * t ^ 2 + 2 * inner ℝ a (b - a) * t + ‖a‖ ^ 2 := by
    intro t
    rw [norm_add_sq_real, inner_smul_right, norm_smul, mul_pow, Real.norm_eq_abs, sq_abs]
    ring
  rw [key]
  simp only [expand]
  unfold obstructed
  simp only
  set A := ‖b - a‖ ^ 2 with hA
  set B := 2 * inner ℝ a (b - a) with hB
  have hA0 : 0 ≤ A := by positivity
  by_cases h0 : A = 0
  · have hba : b - a = 0 := by
      rw [hA] at h0
      exact norm_eq_zero.mp (pow_eq_zero_iff two_ne_zero |>.mp h0)
    have hB0 : B = 0 := by rw [hB, hba, inner_zero_right, mul_zero]
    rw [if_pos h0, decide_eq_true_eq, h0, hB0]
    constructor
    · intro h
      exact ⟨0, le_rfl, zero_le_one, by nlinarith [norm_nonneg a]⟩
    · rintro ⟨t, _, _, h⟩
      have : ‖a‖ ^ 2 ≤ r ^ 2 := by linarith
      exact (pow_le_pow_iff_left₀ (norm_nonneg _) hr two_ne_zero).mp this
  · have hA' : 0 < A := lt_of_le_of_ne hA0 (Ne.symm h0)
    rw [if_neg h0]
    set D := B * B - 4 * A * (‖a‖ ^ 2 - r * r) with hD
    have sq : ∀ t : ℝ, 4 * A * (A * t ^ 2 + B * t + ‖a‖ ^ 2 - r ^ 2) = (2 * A * t + B) ^ 2 - D := by
      intro t
      rw [hD]; ring
    by_cases hneg : D < 0
    · rw [if_pos hneg]
      simp only [Bool.false_eq_true, false_iff, not_exists, not_and, not_le]
      intro t _ _
      have := sq t
      nlinarith [sq_nonneg (2 * A * t + B)]
    · rw [if_neg hneg, decide_eq_true_eq]
      push Not at hneg
      have hs := Real.sqrt_nonneg D
      have hss : Real.sqrt D ^ 2 = D := Real.sq_sqrt hneg
      set s := Real.sqrt D
      have inside : ∀ t : ℝ, A * t ^ 2 + B * t + ‖a‖ ^ 2 ≤ r ^ 2 ↔
          (-B - s) / (2 * A) ≤ t ∧ t ≤ (-B + s) / (2 * A) := by
        intro t
        have h4 := sq t
        rw [← hss] at h4
        have : A * t ^ 2 + B * t + ‖a‖ ^ 2 ≤ r ^ 2 ↔ (2 * A * t + B) ^ 2 ≤ s ^ 2 := by
          constructor <;> intro h <;> nlinarith
        rw [this, sq_le_sq, abs_of_nonneg hs, abs_le, div_le_iff₀ (by linarith), le_div_iff₀ (by linarith)]
        constructor <;> rintro ⟨h, h'⟩ <;> constructor <;> linarith
      simp only [inside]
      have ord : (-B - s) / (2 * A) ≤ (-B + s) / (2 * A) := by
        apply div_le_div_of_nonneg_right _ (by linarith)
        linarith
      generalize (-B - s) / (2 * A) = t1 at *
      generalize (-B + s) / (2 * A) = t2 at *
      constructor
      · rintro (⟨h, h'⟩ | ⟨h, h'⟩ | ⟨h, h'⟩)
        · exact ⟨t1, h, h', le_rfl, ord⟩
        · exact ⟨t2, h, h', ord, le_rfl⟩
        · exact ⟨0, le_rfl, zero_le_one, h.le, by linarith⟩
      · rintro ⟨t, h0, h1, ha, hb⟩
        by_cases c1 : 0 ≤ t1
        · exact Or.inl ⟨c1, by linarith⟩
        · by_cases c2 : t2 ≤ 1
          · exact Or.inr (Or.inl ⟨by linarith, c2⟩)
          · exact Or.inr (Or.inr ⟨by linarith, by linarith⟩)

theorem clamp_inside {x lo hi : ℝ} (h : lo ≤ x) (h' : x ≤ hi) : clamp x lo hi = x := by
  unfold clamp
  rw [if_neg (by linarith), if_neg (by linarith)]

theorem disc_area {r : ℝ} (hr : 0 ≤ r) :
    volume (Metric.closedBall (0 : ℂ) r) = ENNReal.ofReal (Real.pi * r ^ 2) := by
  rw [Complex.volume_closedBall, mul_comm Real.pi, ENNReal.ofReal_mul (by positivity), ENNReal.ofReal_pow hr]
  congr 1
  rw [← NNReal.coe_real_pi, ENNReal.ofReal_coe_nnreal]

/-- The value is the part of the first disc that the second one covers. -/
theorem overlap_covered {r R d : ℝ} (hr : 0 < r) (hR : 0 ≤ R) (hd : 0 ≤ d) :
    Spec.IsCovered r R d (overlapFraction r R d) := by
  have hpi := Real.pi_pos
  have hdist : dist (d : ℂ) 0 = d := by rw [dist_zero_right, Complex.norm_real, Real.norm_of_nonneg hd]
  unfold overlapFraction
  simp only
  by_cases h1 : r + R ≤ d
  · rw [if_pos h1]
    refine ⟨le_rfl, ?_⟩
    rw [ENNReal.ofReal_zero, zero_mul]
    symm
    rw [lens_volume r R d hr.le hR, discs_volume R d hr.le]
    have : (fun x => slice r R d x) = fun _ => 0 := by
      funext x
      unfold slice
      rw [Real.sqrt_eq_zero_of_nonpos, mul_zero]
      by_cases hx : x ≤ r
      · refine (min_le_right _ _).trans ?_
        nlinarith
      · refine (min_le_left _ _).trans ?_
        nlinarith
    rw [this]
    simp
  · rw [if_neg h1]
    by_cases h2 : d + r ≤ R
    · rw [if_pos h2]
      refine ⟨zero_le_one, ?_⟩
      rw [ENNReal.ofReal_one, one_mul]
      congr 1
      symm
      rw [inter_eq_left]
      apply Metric.closedBall_subset_closedBall'
      rw [dist_comm, hdist]
      linarith
    · rw [if_neg h2]
      by_cases h3 : d + R ≤ r
      · rw [if_pos h3]
        refine ⟨by positivity, ?_⟩
        have : Metric.closedBall (d : ℂ) R ⊆ Metric.closedBall (0 : ℂ) r := by
          apply Metric.closedBall_subset_closedBall'
          rw [hdist]
          linarith
        rw [inter_eq_right.mpr this, disc_area hr.le, ← ENNReal.ofReal_mul (by positivity)]
        have e : volume (Metric.closedBall (d : ℂ) R) = volume (Metric.closedBall (0 : ℂ) R) := by
          rw [Complex.volume_closedBall, Complex.volume_closedBall]
        rw [e, disc_area hR]
        congr 1
        field_simp
      · rw [if_neg h3]
        push Not at h1 h2 h3
        have hR' : 0 < R := by linarith
        have hd' : 0 < d := by
          rcases hd.eq_or_lt with h | h
          · exfalso
            rw [← h] at h2 h3
            linarith
          · exact h
        have area := slice_integral hr hR' hd' h1 h3 h2
        have c1 : clamp ((d * d + r * r - R * R) / (2 * d * r)) (-1) 1
            = (d ^ 2 + r ^ 2 - R ^ 2) / (2 * d * r) := by
          rw [clamp_inside]
          · congr 1; ring
          · rw [le_div_iff₀ (by positivity)]; nlinarith
          · rw [div_le_iff₀ (by positivity)]; nlinarith
        have c2 : clamp ((d * d + R * R - r * r) / (2 * d * R)) (-1) 1
            = (d ^ 2 + R ^ 2 - r ^ 2) / (2 * d * R) := by
          rw [clamp_inside]
          · congr 1; ring
          · rw [le_div_iff₀ (by positivity)]; nlinarith
          · rw [div_le_iff₀ (by positivity)]; nlinarith
        have c3 : max ((-d + r + R) * (d + r - R) * (d - r + R) * (d + r + R)) 0
            = (-d + r + R) * (d + r - R) * (d - r + R) * (d + r + R) := by
          apply max_eq_left
          apply mul_nonneg (mul_nonneg (mul_nonneg _ _) _) <;> linarith
        rw [c1, c2, c3]
        have harea : r * r * Real.arccos ((d ^ 2 + r ^ 2 - R ^ 2) / (2 * d * r))
            + R * R * Real.arccos ((d ^ 2 + R ^ 2 - r ^ 2) / (2 * d * R))
            - 0.5 * Real.sqrt ((-d + r + R) * (d + r - R) * (d - r + R) * (d + r + R))
            = ∫ x, slice r R d x := by
          rw [area]; ring
        rw [harea]
        have hvol := discs_volume R d hr.le
        rw [← lens_volume r R d hr.le hR] at hvol
        have hnn : 0 ≤ ∫ x, slice r R d x := integral_nonneg fun x => by
          unfold slice
          positivity
        have hle : ∫ x, slice r R d x ≤ Real.pi * r ^ 2 := by
          have : volume (Metric.closedBall (0 : ℂ) r ∩ Metric.closedBall (d : ℂ) R)
              ≤ volume (Metric.closedBall (0 : ℂ) r) := measure_mono inter_subset_left
          rw [hvol, disc_area hr.le] at this
          exact (ENNReal.ofReal_le_ofReal_iff (by positivity)).mp this
        have hden : 0 < Real.pi * r * r := by positivity
        rw [clamp_inside (by positivity) (by rw [div_le_one hden]; nlinarith)]
        refine ⟨by positivity, ?_⟩
        rw [hvol, disc_area hr.le, ← ENNReal.ofReal_mul (by positivity)]
        congr 1
        field_simp

/-- The covered part is determined and lies in the unit interval. -/
theorem covered_unique {r R d f g : ℝ} (hr : 0 < r) (hf : Spec.IsCovered r R d f)
    (hg : Spec.IsCovered r R d g) : f = g := by
  have hpi := Real.pi_pos
  have h := hf.2.trans hg.2.symm
  rw [disc_area hr.le, ← ENNReal.ofReal_mul hf.1, ← ENNReal.ofReal_mul hg.1,
    ENNReal.ofReal_eq_ofReal_iff (mul_nonneg hf.1 (by positivity)) (mul_nonneg hg.1 (by positivity))] at h
  exact mul_right_cancel₀ (by positivity) h

theorem covered_range {r R d f : ℝ} (hr : 0 < r) (hf : Spec.IsCovered r R d f) : f ≤ 1 := by
  have hpi := Real.pi_pos
  have : volume (Metric.closedBall (0 : ℂ) r ∩ Metric.closedBall (d : ℂ) R)
      ≤ volume (Metric.closedBall (0 : ℂ) r) := measure_mono inter_subset_left
  rw [← hf.2, disc_area hr.le, ← ENNReal.ofReal_mul hf.1, ENNReal.ofReal_le_ofReal_iff (by positivity)] at this
  have hp : 0 < Real.pi * r ^ 2 := by positivity
  nlinarith

/-- Some of the disc is covered exactly when the discs overlap. -/
theorem covered_pos {r R d f : ℝ} (hr : 0 < r) (hR : 0 < R) (hd : 0 ≤ d) (hf : Spec.IsCovered r R d f) :
    0 < f ↔ d < r + R := by
  have hpi := Real.pi_pos
  constructor
  · intro h
    by_contra hn
    push Not at hn
    have : f = overlapFraction r R d := covered_unique hr hf (overlap_covered hr hR.le hd)
    unfold overlapFraction at this
    simp only [if_pos hn] at this
    linarith
  · intro h
    rcases hf.1.eq_or_lt with h0 | h0
    swap
    · exact h0
    exfalso
    have hv := hf.2
    rw [← h0, ENNReal.ofReal_zero, zero_mul] at hv
    set x : ℝ := d * r / (r + R) with hx
    have hxr : x < r := by
      rw [hx, div_lt_iff₀ (by linarith)]
      nlinarith
    have hx0 : 0 ≤ x := by positivity
    have hdx : d - x < R := by
      have : d - x = d * R / (r + R) := by rw [hx]; field_simp; ring
      rw [this, div_lt_iff₀ (by linarith)]
      nlinarith
    have hxd : x ≤ d := by
      rw [hx, div_le_iff₀ (by linarith)]
      nlinarith
    have hsub : Metric.ball (0 : ℂ) r ∩ Metric.ball (d : ℂ) R
        ⊆ Metric.closedBall (0 : ℂ) r ∩ Metric.closedBall (d : ℂ) R :=
      inter_subset_inter Metric.ball_subset_closedBall Metric.ball_subset_closedBall
    have hz : volume (Metric.ball (0 : ℂ) r ∩ Metric.ball (d : ℂ) R) = 0 :=
      measure_mono_null hsub hv.symm
    have hopen : IsOpen (Metric.ball (0 : ℂ) r ∩ Metric.ball (d : ℂ) R) :=
      Metric.isOpen_ball.inter Metric.isOpen_ball
    have : (x : ℂ) ∈ Metric.ball (0 : ℂ) r ∩ Metric.ball (d : ℂ) R := by
      constructor
      · rw [Metric.mem_ball, dist_zero_right, Complex.norm_real, Real.norm_of_nonneg hx0]
        exact hxr
      · rw [Metric.mem_ball, dist_eq_norm, ← Complex.ofReal_sub, Complex.norm_real, Real.norm_eq_abs,
          abs_lt]
        constructor <;> linarith
    exact (hopen.measure_pos volume ⟨_, this⟩).ne' hz

end Verif.Mission
