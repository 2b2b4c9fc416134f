import Verif.Mission.Sight
import Mathlib.Geometry.Euclidean.Angle.Unoriented.TriangleInequality
import Mathlib.Analysis.Calculus.Deriv.MeanValue

/-!
# From overlapping discs to shadows in space
-/

namespace Verif.Mission

open Set MeasureTheory

/-- A body is met by the line of sight if its centre is close enough to the direction and it is not farther
than the target. -/
theorem hidden_of_angle {obs p occ : Vec3} {r β : ℝ} (hc : occ ≠ obs) (hβ : β ≤ Real.pi / 2)
    (ha : InnerProductGeometry.angle (p - obs) (occ - obs) ≤ β) (hr : ‖occ - obs‖ * Real.sin β ≤ r)
    (hfar : ‖occ - obs‖ ≤ ‖p - obs‖) : Spec.Hidden obs p occ r := by
  set a := p - obs with hadef
  set c := occ - obs with hcdef
  have hcn : 0 < ‖c‖ := norm_pos_iff.mpr (sub_ne_zero.mpr hc)
  have han : 0 < ‖a‖ := hcn.trans_le hfar
  set θ := InnerProductGeometry.angle a c with hθ
  have h0 : 0 ≤ θ := InnerProductGeometry.angle_nonneg _ _
  have hcos : 0 ≤ Real.cos θ := Real.cos_nonneg_of_neg_pi_div_two_le_of_le (by linarith [Real.pi_pos]) (by linarith)
  have hin : inner ℝ a c = ‖a‖ * ‖c‖ * Real.cos θ := by
    rw [hθ, InnerProductGeometry.cos_angle]
    field_simp
  have hsin : Real.sin θ ≤ Real.sin β :=
    Real.strictMonoOn_sin.monotoneOn ⟨by linarith [Real.pi_pos], by linarith⟩
      ⟨by linarith [Real.pi_pos], hβ⟩ ha
  have hs0 : 0 ≤ Real.sin θ := Real.sin_nonneg_of_nonneg_of_le_pi h0 (by linarith [Real.pi_pos])
  have ht0 : 0 ≤ ‖c‖ / ‖a‖ * Real.cos θ := by positivity
  have ht1 : ‖c‖ / ‖a‖ * Real.cos θ ≤ 1 := by
    have : ‖c‖ / ‖a‖ ≤ 1 := (div_le_one han).mpr hfar
    nlinarith [Real.cos_le_one θ]
  refine ⟨obs + (‖c‖ / ‖a‖ * Real.cos θ) • a, ?_, ?_⟩
  · rw [segment_eq_image']
    exact ⟨_, ⟨ht0, ht1⟩, rfl⟩
  · have e : dist (obs + (‖c‖ / ‖a‖ * Real.cos θ) • a) occ = ‖(‖c‖ / ‖a‖ * Real.cos θ) • a - c‖ := by
      rw [dist_eq_norm]
      congr 1
      rw [hcdef]
      abel
    rw [e]
    have hsq : ‖(‖c‖ / ‖a‖ * Real.cos θ) • a - c‖ ^ 2 = (‖c‖ * Real.sin θ) ^ 2 := by
      rw [norm_sub_sq_real, norm_smul, real_inner_smul_left, hin, mul_pow, Real.norm_eq_abs, sq_abs, mul_pow,
        mul_pow ‖c‖ (Real.sin θ), Real.sin_sq]
      field_simp
      ring
    have := (pow_left_inj₀ (norm_nonneg _) (by positivity) two_ne_zero).mp hsq
    rw [this]
    exact (mul_le_mul_of_nonneg_left hsin hcn.le).trans hr

/-- The points of a ball are within its angular radius of the centre. -/
theorem ball_angle {s p : Vec3} {ρ : ℝ} (hs : s ≠ 0) (h0 : 0 ≤ ρ) (h1 : ρ < ‖s‖) (hp : ‖p - s‖ ≤ ρ) :
    InnerProductGeometry.angle p s ≤ Real.arcsin (ρ / ‖s‖) := by
  have hsn : 0 < ‖s‖ := norm_pos_iff.mpr hs
  have hpn : 0 < ‖p‖ := by
    rw [norm_pos_iff]
    rintro rfl
    rw [zero_sub, norm_neg] at hp
    linarith
  set k := Real.sqrt (‖s‖ ^ 2 - ρ ^ 2) with hk
  have hk2 : k ^ 2 = ‖s‖ ^ 2 - ρ ^ 2 := Real.sq_sqrt (by nlinarith)
  have hk0 : 0 ≤ k := Real.sqrt_nonneg _
  have hin : ‖p‖ * k ≤ inner ℝ p s := by
    have := norm_sub_sq_real p s
    have hsq : ‖p - s‖ ^ 2 ≤ ρ ^ 2 := pow_le_pow_left₀ (norm_nonneg _) hp 2
    nlinarith [sq_nonneg (‖p‖ - k)]
  have hx0 : 0 ≤ ρ / ‖s‖ := by positivity
  have hx1 : ρ / ‖s‖ ≤ 1 := by rw [div_le_one hsn]; exact h1.le
  have hcos : Real.cos (Real.arcsin (ρ / ‖s‖)) = k / ‖s‖ := by
    rw [Real.cos_arcsin, show 1 - (ρ / ‖s‖) ^ 2 = (‖s‖ ^ 2 - ρ ^ 2) / ‖s‖ ^ 2 by field_simp,
      Real.sqrt_div (by nlinarith), Real.sqrt_sq hsn.le]
  have hle : Real.cos (Real.arcsin (ρ / ‖s‖)) ≤ Real.cos (InnerProductGeometry.angle p s) := by
    rw [hcos, InnerProductGeometry.cos_angle, div_le_div_iff₀ hsn (by positivity)]
    nlinarith
  have hm0 : 0 ≤ Real.arcsin (ρ / ‖s‖) := Real.arcsin_nonneg.mpr hx0
  by_contra hn
  push Not at hn
  have := Real.strictAntiOn_cos ⟨hm0, by linarith [Real.arcsin_le_pi_div_two (ρ / ‖s‖), Real.pi_pos]⟩
    ⟨InnerProductGeometry.angle_nonneg p s, InnerProductGeometry.angle_le_pi p s⟩ hn
  linarith

/-- The arc sine grows faster than the arc tangent. -/
theorem arcsin_sub_arctan_mono : MonotoneOn (fun x => Real.arcsin x - Real.arctan x) (Ico 0 1) := by
  apply monotoneOn_of_deriv_nonneg (convex_Ico 0 1)
  · exact (Real.continuous_arcsin.sub Real.continuous_arctan).continuousOn
  · intro x hx
    rw [interior_Ico] at hx
    exact ((Real.hasDerivAt_arcsin (by linarith [hx.1]) (by linarith [hx.2])).sub
      (Real.hasDerivAt_arctan x)).differentiableAt.differentiableWithinAt
  · intro x hx
    rw [interior_Ico] at hx
    have hd := (Real.hasDerivAt_arcsin (by linarith [hx.1] : x ≠ -1) (by linarith [hx.2] : x ≠ 1)).sub
      (Real.hasDerivAt_arctan x)
    have : deriv (fun x => Real.arcsin x - Real.arctan x) x = 1 / Real.sqrt (1 - x ^ 2) - 1 / (1 + x ^ 2) := hd.deriv
    rw [this]
    have hp : 0 < 1 - x ^ 2 := by nlinarith [hx.1, hx.2]
    have hs : Real.sqrt (1 - x ^ 2) ≤ 1 := by
      have := Real.sqrt_le_sqrt (show 1 - x ^ 2 ≤ 1 by nlinarith [sq_nonneg x])
      rwa [Real.sqrt_one] at this
    have hs0 := Real.sqrt_pos.mpr hp
    have h1 : 1 ≤ 1 / Real.sqrt (1 - x ^ 2) := by rw [le_div_iff₀ hs0]; linarith
    have h2 : 1 / (1 + x ^ 2) ≤ 1 := by rw [div_le_one (by positivity)]; nlinarith [sq_nonneg x]
    linarith

theorem arctan_le_arcsin {x : ℝ} (h0 : 0 ≤ x) (h1 : x < 1) : Real.arctan x ≤ Real.arcsin x := by
  have := arcsin_sub_arctan_mono ⟨le_rfl, one_pos⟩ ⟨h0, h1⟩ h0
  simp only [Real.arcsin_zero, Real.arctan_zero] at this
  linarith

/-- The whole disc is covered exactly when it lies inside the other. -/
theorem covered_one {r R d f : ℝ} (hr : 0 < r) (hd : 0 ≤ d) (hR : 0 ≤ R) (hf : Spec.IsCovered r R d f) :
    f = 1 → d + r ≤ R := by
  intro h
  by_contra hn
  push Not at hn
  have hv := hf.2
  rw [h, ENNReal.ofReal_one, one_mul] at hv
  set x : ℝ := max ((R - d + r) / 2) (r / 2) with hx
  have hx1 : x < r := by
    rw [hx, max_lt_iff]
    constructor <;> linarith
  have hx2 : R - d < x := by
    rw [hx, lt_max_iff]
    left
    linarith
  have hx0 : 0 < x := by
    rw [hx, lt_max_iff]
    right
    linarith
  have hfin : volume (Metric.closedBall (0 : ℂ) r) ≠ ⊤ := by
    rw [disc_area hr.le]
    exact ENNReal.ofReal_ne_top
  have hdiff : volume (Metric.closedBall (0 : ℂ) r \ (Metric.closedBall (0 : ℂ) r ∩ Metric.closedBall (d : ℂ) R)) = 0 := by
    rw [measure_diff inter_subset_left
      (Metric.isClosed_closedBall.inter Metric.isClosed_closedBall).measurableSet.nullMeasurableSet
      (by rw [← hv]; exact hfin), ← hv, tsub_self]
  have hopen : IsOpen (Metric.ball (0 : ℂ) r \ Metric.closedBall (d : ℂ) R) :=
    Metric.isOpen_ball.sdiff Metric.isClosed_closedBall
  have hmem : (-(x : ℂ)) ∈ Metric.ball (0 : ℂ) r \ Metric.closedBall (d : ℂ) R := by
    constructor
    · rw [Metric.mem_ball, dist_zero_right, norm_neg, Complex.norm_real, Real.norm_of_nonneg hx0.le]
      exact hx1
    · rw [Metric.mem_closedBall, dist_eq_norm, ← Complex.ofReal_neg, ← Complex.ofReal_sub, Complex.norm_real,
        Real.norm_eq_abs, not_le, lt_abs]
      right
      linarith
  have hsub : Metric.ball (0 : ℂ) r \ Metric.closedBall (d : ℂ) R
      ⊆ Metric.closedBall (0 : ℂ) r \ (Metric.closedBall (0 : ℂ) r ∩ Metric.closedBall (d : ℂ) R) := by
    rintro z ⟨h1, h2⟩
    exact ⟨Metric.ball_subset_closedBall h1, fun hz => h2 hz.2⟩
  exact (hopen.measure_pos volume ⟨_, hmem⟩).ne' (measure_mono_null hsub hdiff)

/-- Two unit vectors and an angle: the vector in their plane at angle `φ` from the first towards the second. -/
theorem turn_towards {u v : Vec3} (hu : ‖u‖ = 1) (hv : ‖v‖ = 1) (h0 : 0 < InnerProductGeometry.angle u v)
    (hpi : InnerProductGeometry.angle u v < Real.pi) {φ : ℝ} :
    ∃ w : Vec3, ‖w‖ = 1 ∧ inner ℝ w u = Real.cos φ ∧
      inner ℝ w v = Real.cos (InnerProductGeometry.angle u v - φ) := by
  set θ := InnerProductGeometry.angle u v with hθ
  have hs : 0 < Real.sin θ := Real.sin_pos_of_pos_of_lt_pi h0 hpi
  have hc : inner ℝ u v = Real.cos θ := by
    rw [hθ, InnerProductGeometry.cos_angle, hu, hv]
    simp
  have huu : inner ℝ u u = (1 : ℝ) := by rw [real_inner_self_eq_norm_sq, hu]; norm_num
  have hvv : inner ℝ v v = (1 : ℝ) := by rw [real_inner_self_eq_norm_sq, hv]; norm_num
  have hcv : inner ℝ v u = Real.cos θ := by rw [real_inner_comm]; exact hc
  set e := (1 / Real.sin θ) • (v - Real.cos θ • u) with he
  have heu : inner ℝ e u = (0 : ℝ) := by
    rw [he, real_inner_smul_left, inner_sub_left, real_inner_smul_left, huu, hcv]
    ring
  have hev : inner ℝ e v = Real.sin θ := by
    rw [he, real_inner_smul_left, inner_sub_left, real_inner_smul_left, hvv, hc]
    have := Real.sin_sq_add_cos_sq θ
    field_simp
    linarith
  have hee : inner ℝ e e = (1 : ℝ) := by
    conv_lhs => rw [he]
    rw [real_inner_smul_left, inner_sub_left, real_inner_smul_left, real_inner_comm e v, real_inner_comm e u]
    rw [heu, hev]
    field_simp
    ring
  refine ⟨Real.cos φ • u + Real.sin φ • e, ?_, ?_, ?_⟩
  · have : ‖Real.cos φ • u + Real.sin φ • e‖ ^ 2 = 1 ^ 2 := by
      rw [← real_inner_self_eq_norm_sq, inner_add_left, inner_add_right, inner_add_right]
      simp only [real_inner_smul_left, real_inner_smul_right]
      rw [huu, hee, heu, real_inner_comm e u, heu]
      have := Real.sin_sq_add_cos_sq φ
      nlinarith
    exact (pow_left_inj₀ (norm_nonneg _) zero_le_one two_ne_zero).mp this
  · rw [inner_add_left, real_inner_smul_left, real_inner_smul_left, huu, heu]
    ring
  · rw [inner_add_left, real_inner_smul_left, real_inner_smul_left, hc, hev, Real.cos_sub]
    ring

end Verif.Mission
