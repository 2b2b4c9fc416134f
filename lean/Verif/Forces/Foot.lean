import Verif.Forces.Altitude

/-!
# Every exterior point has a foot, and its height is its distance from the ellipsoid
-/

namespace Verif.Forces

open Set

/-- On the meridian: a point of the first quadrant outside the ellipse lies over some point of it. -/
theorem foot_exists {a g p z : ℝ} (ha : 0 < a) (hg1 : 0.995 ≤ g) (hg2 : g ≤ 1) (hp : 0 ≤ p) (hz : 0 ≤ z)
    (hout : 1 ≤ p ^ 2 / a ^ 2 + z ^ 2 / (a * g) ^ 2) : ∃ C S d h, Over a g C S d h p z := by
  have hg : 0 < g := by linarith
  have hpi := Real.pi_pos
  set F : ℝ → ℝ := fun t => g * Real.cos t * z - Real.sin t * p + a * (1 - g ^ 2) * (Real.cos t * Real.sin t) with hF
  have hcont : ContinuousOn F (Icc 0 (Real.pi / 2)) := by
    apply Continuous.continuousOn
    rw [hF]
    fun_prop
  have h0 : F (Real.pi / 2) ≤ 0 := by
    rw [hF]
    simp
    linarith
  have h1 : 0 ≤ F 0 := by
    rw [hF]
    simp
    positivity
  obtain ⟨t, ht, hFt⟩ := intermediate_value_Icc' (by linarith : (0 : ℝ) ≤ Real.pi / 2) hcont ⟨h0, h1⟩
  have hC : 0 ≤ Real.cos t := Real.cos_nonneg_of_neg_pi_div_two_le_of_le (by linarith [ht.1]) ht.2
  have hS : 0 ≤ Real.sin t := Real.sin_nonneg_of_nonneg_of_le_pi ht.1 (by linarith [ht.2])
  have hu : Real.cos t ^ 2 + Real.sin t ^ 2 = 1 := by rw [← Real.sin_sq_add_cos_sq t]; ring
  rw [hF] at hFt
  simp only at hFt
  set C := Real.cos t with hCd
  set S := Real.sin t with hSd
  have hdq : 0 < g ^ 2 * C ^ 2 + S ^ 2 := by
    rcases hC.eq_or_lt with h | h
    · rw [← h] at hu ⊢
      nlinarith
    · positivity
  set d := Real.sqrt (g ^ 2 * C ^ 2 + S ^ 2) with hd
  have hd2 : d ^ 2 = g ^ 2 * C ^ 2 + S ^ 2 := Real.sq_sqrt hdq.le
  have hdp : 0 < d := Real.sqrt_pos.mpr hdq
  clear_value d
  obtain ⟨h, hh⟩ : ∃ h, h = (g * C * (p - a * C) + S * (z - a * g * S)) / d := ⟨_, rfl⟩
  have hp' : p = C * (a + h * g / d) := by
    have : p * d ^ 2 = C * (a + h * g / d) * d ^ 2 := by
      rw [hh]
      field_simp
      rw [hd2]
      linear_combination (-S) * hFt
    exact mul_right_cancel₀ (by positivity) this
  have hz' : z = S * (a * g + h / d) := by
    have : z * d ^ 2 = S * (a * g + h / d) * d ^ 2 := by
      rw [hh]
      field_simp
      rw [hd2]
      linear_combination (g * C) * hFt
    exact mul_right_cancel₀ (by positivity) this
  refine ⟨C, S, d, h, ha, hg1, hg2, hu, hd2, hdp, ?_, hp', hz'⟩
  by_contra hneg
  push Not at hneg
  have hn1 : h * g / d < 0 := div_neg_of_neg_of_pos (mul_neg_of_neg_of_pos hneg hg) hdp
  have hn2 : h / d < 0 := div_neg_of_neg_of_pos hneg hdp
  have hpa : p ^ 2 / a ^ 2 ≤ C ^ 2 ∧ (0 < C → p ^ 2 / a ^ 2 < C ^ 2) := by
    rcases hC.eq_or_lt with h0 | h0
    · rw [← h0] at hp' ⊢
      rw [hp']
      simp
    · have hk : 0 ≤ a + h * g / d := by
        by_contra hk
        push Not at hk
        rw [hp'] at hp
        linarith [mul_neg_of_pos_of_neg h0 hk]
      have hlt : p < C * a := by
        rw [hp']
        exact mul_lt_mul_of_pos_left (by linarith) h0
      have : p ^ 2 < (C * a) ^ 2 := pow_lt_pow_left₀ hlt hp two_ne_zero
      have : p ^ 2 / a ^ 2 < C ^ 2 := by
        rw [div_lt_iff₀ (by positivity)]
        linarith [mul_pow C a 2]
      exact ⟨this.le, fun _ => this⟩
  have hza : z ^ 2 / (a * g) ^ 2 ≤ S ^ 2 ∧ (0 < S → z ^ 2 / (a * g) ^ 2 < S ^ 2) := by
    rcases hS.eq_or_lt with h0 | h0
    · rw [← h0] at hz' ⊢
      rw [hz']
      simp
    · have hk : 0 ≤ a * g + h / d := by
        by_contra hk
        push Not at hk
        rw [hz'] at hz
        linarith [mul_neg_of_pos_of_neg h0 hk]
      have hlt : z < S * (a * g) := by
        rw [hz']
        exact mul_lt_mul_of_pos_left (by linarith) h0
      have : z ^ 2 < (S * (a * g)) ^ 2 := pow_lt_pow_left₀ hlt hz two_ne_zero
      have : z ^ 2 / (a * g) ^ 2 < S ^ 2 := by
        rw [div_lt_iff₀ (by positivity)]
        linarith [mul_pow S (a * g) 2]
      exact ⟨this.le, fun _ => this⟩
  rcases hC.eq_or_lt with h0 | h0
  · have hS0 : 0 < S := by
      rcases hS.eq_or_lt with h1 | h1
      · rw [← h0, ← h1] at hu; norm_num at hu
      · exact h1
    linarith [hpa.1, hza.2 hS0]
  · linarith [hpa.2 h0, hza.1]

/-- The same for either sign of the axial coordinate. -/
theorem foot_exists' {a g p z : ℝ} (ha : 0 < a) (hg1 : 0.995 ≤ g) (hg2 : g ≤ 1) (hp : 0 ≤ p)
    (hout : 1 ≤ p ^ 2 / a ^ 2 + z ^ 2 / (a * g) ^ 2) : ∃ C S d h, Over a g C S d h p z := by
  rcases le_total 0 z with hz | hz
  · exact foot_exists ha hg1 hg2 hp hz hout
  · obtain ⟨C, S, d, h, o⟩ := foot_exists ha hg1 hg2 hp (by linarith : 0 ≤ -z) (by rw [neg_sq]; exact hout)
    refine ⟨C, -S, d, h, o.a_pos, o.g_low, o.g_high, ?_, ?_, o.d_pos, o.h_nonneg, o.p_eq, ?_⟩
    · rw [neg_sq]; exact o.unit
    · rw [neg_sq]; exact o.d_sq
    · rw [neg_mul, ← o.z_eq, neg_neg]

theorem support {C S u v A B D : ℝ} (hu : C ^ 2 + S ^ 2 = 1) (huv : u ^ 2 + v ^ 2 = 1) (hy : A ^ 2 + B ^ 2 + D ^ 2 ≤ 1) :
    C * (u * A + v * B) + S * D ≤ 1 := by
  have h1 : (u * A + v * B) ^ 2 + (u * B - v * A) ^ 2 = A ^ 2 + B ^ 2 := by linear_combination (A ^ 2 + B ^ 2) * huv
  have h2 : (C * (u * A + v * B) + S * D) ^ 2 + (C * D - S * (u * A + v * B)) ^ 2 = (u * A + v * B) ^ 2 + D ^ 2 := by
    linear_combination ((u * A + v * B) ^ 2 + D ^ 2) * hu
  have h3 : (C * (u * A + v * B) + S * D) ^ 2 ≤ 1 ^ 2 := by
    linarith [sq_nonneg (u * B - v * A), sq_nonneg (C * D - S * (u * A + v * B))]
  exact le_of_abs_le (abs_le_of_sq_le_sq h3 zero_le_one)

/-- The height is the distance from the ellipsoid. -/
theorem over_distance {a g C S d h : ℝ} {x : Vec3}
    (o : Over a g C S d h (Real.sqrt (x 0 * x 0 + x 1 * x 1)) (x 2)) :
    Metric.infDist x (Spec.solid a (a * g)) = h := by
  obtain ⟨ha, hg1, hg2, hu, hd, hdp, hh, hp, hz⟩ := o
  have hg : 0 < g := by linarith
  set p := Real.sqrt (x 0 * x 0 + x 1 * x 1) with hpd
  have hp2 : p ^ 2 = x 0 * x 0 + x 1 * x 1 := Real.sq_sqrt (add_nonneg (mul_self_nonneg _) (mul_self_nonneg _))
  obtain ⟨u, v, huv, hx0, hx1⟩ : ∃ u v : ℝ, u ^ 2 + v ^ 2 = 1 ∧ x 0 = p * u ∧ x 1 = p * v := by
    by_cases h0 : p = 0
    · refine ⟨1, 0, by norm_num, ?_, ?_⟩ <;> rw [h0] at hp2 ⊢ <;> nlinarith [sq_nonneg (x 0), sq_nonneg (x 1)]
    · refine ⟨x 0 / p, x 1 / p, ?_, by field_simp, by field_simp⟩
      rw [div_pow, div_pow, ← add_div, div_eq_one_iff_eq (by positivity), hp2]
      ring
  clear_value p
  set q : Vec3 := !₂[a * C * u, a * C * v, a * g * S] with hq
  set n : Vec3 := !₂[g * C / d * u, g * C / d * v, S / d] with hn
  have hnn : ‖n‖ = 1 := by
    apply norm_of_sq zero_le_one
    simp only [hn, Matrix.cons_val_zero, Matrix.cons_val_one, Matrix.cons_val]
    field_simp
    rw [hd]
    linear_combination (g ^ 2 * C ^ 2) * huv
  have hxq : x = q + h • n := by
    apply vec_eq <;>
      simp only [hq, hn, PiLp.add_apply, PiLp.smul_apply, smul_eq_mul, Matrix.cons_val_zero, Matrix.cons_val_one,
        Matrix.cons_val]
    · rw [hx0, hp]; ring
    · rw [hx1, hp]; ring
    · rw [hz]; ring
  have hqs : q ∈ Spec.solid a (a * g) := by
    unfold Spec.solid
    simp only [mem_setOf_eq, hq, Matrix.cons_val_zero, Matrix.cons_val_one, Matrix.cons_val]
    apply le_of_eq
    field_simp
    linear_combination hu + C ^ 2 * huv
  have hdist : dist x q = h := by
    rw [dist_eq_norm, hxq, add_sub_cancel_left, norm_smul, hnn, mul_one, Real.norm_of_nonneg hh]
  apply le_antisymm
  · rw [← hdist]
    exact Metric.infDist_le_dist_of_mem hqs
  · rw [Metric.le_infDist ⟨q, hqs⟩]
    intro y hy
    unfold Spec.solid at hy
    simp only [mem_setOf_eq] at hy
    have hin : inner ℝ n y ≤ a * g / d := by
      rw [inner_vec]
      simp only [hn, Matrix.cons_val_zero, Matrix.cons_val_one, Matrix.cons_val]
      obtain ⟨A, hA⟩ : ∃ A, A = y 0 / a := ⟨_, rfl⟩
      obtain ⟨B, hB⟩ : ∃ B, B = y 1 / a := ⟨_, rfl⟩
      obtain ⟨D, hD⟩ : ∃ D, D = y 2 / (a * g) := ⟨_, rfl⟩
      have hy' : A ^ 2 + B ^ 2 + D ^ 2 ≤ 1 := by rw [hA, hB, hD, div_pow, div_pow, div_pow]; exact hy
      have e : g * C / d * u * y 0 + g * C / d * v * y 1 + S / d * y 2 = a * g / d * (C * (u * A + v * B) + S * D) := by
        rw [hA, hB, hD]
        field_simp
      rw [e]
      have h2 := support hu huv hy'
      calc a * g / d * (C * (u * A + v * B) + S * D) ≤ a * g / d * 1 := by gcongr
        _ = _ := mul_one _
    have hinq : inner ℝ n q = a * g / d := by
      rw [inner_vec]
      simp only [hn, hq, Matrix.cons_val_zero, Matrix.cons_val_one, Matrix.cons_val]
      field_simp
      linear_combination hu + C ^ 2 * huv
    have h3 : inner ℝ n (x - y) ≤ ‖n‖ * ‖x - y‖ := real_inner_le_norm _ _
    rw [hnn, one_mul, ← dist_eq_norm] at h3
    have h4 : inner ℝ n (x - y) = h + (inner ℝ n q - inner ℝ n y) := by
      rw [inner_sub_right, hxq, inner_add_right, real_inner_smul_right, real_inner_self_eq_norm_sq, hnn]
      ring
    linarith

/-- **C122**: for every point outside the ellipsoid the altitude is its distance from the ellipsoid, to `10⁻²⁰` of the
equatorial radius plus that distance, whatever the flattening up to 1/200. -/
theorem altitude_distance {a f : ℝ} (ha : 0 < a) (hf0 : 0 ≤ f) (hf : f ≤ 1 / 200) (x : Vec3)
    (hx : 1 ≤ x 0 ^ 2 / a ^ 2 + x 1 ^ 2 / a ^ 2 + x 2 ^ 2 / (a * (1 - f)) ^ 2) :
    |geodeticAltitude x a f - Metric.infDist x (Spec.solid a (a * (1 - f)))|
      ≤ 1e-20 * (a + Metric.infDist x (Spec.solid a (a * (1 - f)))) := by
  have hp2 : Real.sqrt (x 0 * x 0 + x 1 * x 1) ^ 2 = x 0 * x 0 + x 1 * x 1 :=
    Real.sq_sqrt (add_nonneg (mul_self_nonneg _) (mul_self_nonneg _))
  obtain ⟨C, S, d, h, o⟩ := foot_exists' (a := a) (g := 1 - f) (p := Real.sqrt (x 0 * x 0 + x 1 * x 1)) (z := x 2) ha
    (by norm_num; linarith) (by linarith) (Real.sqrt_nonneg _) (by
      rw [hp2, add_div, ← pow_two, ← pow_two]
      exact hx)
  have h1 := altitude_over o
  rw [over_distance o]
  rwa [show 1 - (1 - f) = f by ring] at h1

/-- **C122**: the altitude does not change under rotations about the axis. -/
theorem altitude_turn (α a f : ℝ) (x : Vec3) : geodeticAltitude (Spec.turn α x) a f = geodeticAltitude x a f := by
  have e : (Spec.turn α x) 0 * (Spec.turn α x) 0 + (Spec.turn α x) 1 * (Spec.turn α x) 1 = x 0 * x 0 + x 1 * x 1 := by
    simp only [Spec.turn, Matrix.cons_val_zero, Matrix.cons_val_one, Matrix.cons_val]
    linear_combination (x 0 ^ 2 + x 1 ^ 2) * Real.sin_sq_add_cos_sq α
  have e2 : (Spec.turn α x) 2 = x 2 := rfl
  unfold geodeticAltitude
  simp only [e, e2]

/-- The WGS-84 ellipsoid and a satellite at `(7000, 0, 1000)` km. -/
example : 1 ≤ ((!₂[7000, 0, 1000] : Vec3) 0) ^ 2 / wgsA ^ 2 + ((!₂[7000, 0, 1000] : Vec3) 1) ^ 2 / wgsA ^ 2
    + ((!₂[7000, 0, 1000] : Vec3) 2) ^ 2 / (wgsA * (1 - wgsF)) ^ 2 := by
  unfold wgsA wgsF
  simp
  norm_num

end Verif.Forces
