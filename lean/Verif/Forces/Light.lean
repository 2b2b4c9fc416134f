import Verif.Forces.Foot
import Verif.Mission.Props

/-!
# Shadows and radiation pressure
-/

namespace Verif.Forces

open Mission (overlapFraction overlap_covered covered_one covered_pos covered_range hidden_of_angle ball_angle turn_towards)

/-- **C120**: the cylindrical model puts exactly those satellites above the surface into the shadow whose sunward half-line
meets the Earth, the light coming from the direction of the Sun's position. -/
theorem cylindrical_exact {sat sun : Vec3} {R : ℝ} (hsun : sun ≠ 0) (hsat : R ≤ ‖sat‖) (hR : 0 < R) :
    (cylindrical sat sun R = 0 ↔ Spec.Shaded sat ((1 / ‖sun‖) • sun) R) ∧
    (cylindrical sat sun R = 1 ↔ ¬ Spec.Shaded sat ((1 / ‖sun‖) • sun) R) := by
  have hn : 0 < ‖sun‖ := norm_pos_iff.mpr hsun
  set u : Vec3 := (1 / ‖sun‖) • sun with hu
  have hu1 : ‖u‖ = 1 := by rw [hu, norm_smul, Real.norm_of_nonneg (by positivity)]; field_simp
  have u0 : sun 0 / ‖sun‖ = u 0 := by simp [hu]; ring
  have u1 : sun 1 / ‖sun‖ = u 1 := by simp [hu]; ring
  have u2 : sun 2 / ‖sun‖ = u 2 := by simp [hu]; ring
  set m := inner ℝ sat u with hm
  have hm' : sat 0 * u 0 + sat 1 * u 1 + sat 2 * u 2 = m := by rw [hm, inner_vec]
  have hperp : (sat 0 - m * u 0) ^ 2 + (sat 1 - m * u 1) ^ 2 + (sat 2 - m * u 2) ^ 2 = ‖sat‖ ^ 2 - m ^ 2 := by
    have h1 := norm_sq_vec u
    rw [hu1] at h1
    rw [norm_sq_vec]
    linear_combination (-m ^ 2) * h1 - 2 * m * hm'
  have hline : ∀ t : ℝ, ‖sat + t • u‖ ^ 2 = ‖sat‖ ^ 2 - m ^ 2 + (m + t) ^ 2 := by
    intro t
    rw [norm_add_sq_real, real_inner_smul_right, norm_smul, hu1, ← hm, mul_one, Real.norm_eq_abs, sq_abs]
    ring
  have key : Spec.Shaded sat u R ↔ m < 0 ∧ ‖sat‖ ^ 2 - m ^ 2 < R * R := by
    constructor
    · rintro ⟨t, ht, hlt⟩
      have h1 : ‖sat + t • u‖ ^ 2 < R ^ 2 := pow_lt_pow_left₀ hlt (norm_nonneg _) two_ne_zero
      rw [hline] at h1
      have h2 : R ^ 2 ≤ ‖sat‖ ^ 2 := pow_le_pow_left₀ hR.le hsat 2
      constructor
      · by_contra h0
        push Not at h0
        nlinarith
      · nlinarith [sq_nonneg (m + t)]
    · rintro ⟨h0, h1⟩
      refine ⟨-m, by linarith, ?_⟩
      have := hline (-m)
      rw [add_neg_cancel] at this
      apply lt_of_pow_lt_pow_left₀ 2 hR.le
      linarith [pow_two R, zero_pow (M₀ := ℝ) two_ne_zero]
  rw [key]
  unfold cylindrical
  simp only [radius_eq, if_neg hn.ne', u0, u1, u2, hm', hperp]
  by_cases h0 : 0 ≤ m
  · rw [if_pos h0]
    simp [not_lt.mpr h0]
  · rw [if_neg h0]
    push Not at h0
    by_cases h1 : ‖sat‖ ^ 2 - m ^ 2 < R * R
    · rw [if_pos h1]; simp [h0, h1]
    · rw [if_neg h1]; simp [h1]

theorem le_of_sq_le_sq_norm {R : ℝ} {x : Vec3} (h : R ^ 2 ≤ ‖x‖ ^ 2) : R ≤ ‖x‖ :=
  (le_abs_self R).trans (abs_le_of_sq_le_sq h (norm_nonneg x))

/-- A satellite behind the Earth, 500 km off the axis. -/
example : cylindrical !₂[-7000, 500, 0] !₂[1.5e8, 0, 0] 6378.137 = 0 := by
  have hn : ‖(!₂[1.5e8, 0, 0] : Vec3)‖ = 1.5e8 := norm_of_sq (by norm_num) (by simp; norm_num)
  have hs : (6378.137 : ℝ) ≤ ‖(!₂[-7000, 500, 0] : Vec3)‖ := by
    apply le_of_sq_le_sq_norm
    rw [norm_sq_vec]
    simp
    norm_num
  refine (cylindrical_exact (by intro h; rw [h] at hn; norm_num at hn) hs (by norm_num)).1.mpr ⟨7000, by norm_num, ?_⟩
  rw [hn, norm_of_sq (n := 500) (by norm_num) (by simp; norm_num)]
  norm_num

/-- The lit part is what the other disc leaves of the first. -/
theorem lit_eq {rs re th : ℝ} (hs : 0 < rs) (he : 0 < re) (ht : 0 ≤ th) : lit rs re th = 1 - overlapFraction rs re th := by
  have hcl : ∀ x : ℝ, clamp (1 - x) 0 1 = 1 - Mission.clamp x 0 1 := by
    intro x
    unfold clamp Mission.clamp
    split_ifs <;> linarith
  have hcl' : ∀ x : ℝ, clamp x (-1) 1 = Mission.clamp x (-1) 1 := fun x => rfl
  unfold lit overlapFraction
  simp only
  by_cases h1 : rs + re ≤ th
  · rw [if_pos h1, if_pos h1]; norm_num
  rw [if_neg h1, if_neg h1]
  by_cases h2 : th + rs ≤ re
  · rw [if_pos h2, if_pos ⟨by linarith, by linarith⟩]; norm_num
  rw [if_neg h2, if_neg (by push Not at h2 ⊢; intro _; linarith)]
  by_cases h3 : th + re ≤ rs
  · have h4 : re < rs := by
      push Not at h2
      by_contra hn
      push Not at hn
      linarith
    rw [if_pos h3, if_pos ⟨h4, by linarith⟩]
    ring
  rw [if_neg h3, if_neg (by push Not at h3 ⊢; intro _; linarith), hcl, hcl', hcl']
  have ht0 : th ≠ 0 := by
    rintro rfl
    push Not at h2 h3
    linarith
  rw [div_div, div_div]
  congr 3
  have e : (rs + re + th) * (rs + re - th) * (th + rs - re) * (th - rs + re)
      = (-th + rs + re) * (th + rs - re) * (th - rs + re) * (th + rs + re) := by ring
  rw [e]
  ring

/-- The angular radii and separation that the conical model uses. -/
theorem conical_eq {sat sun : Vec3} {R sr : ℝ} (hR : 0 < R) (hs : 0 < sr) (h1 : R < ‖sat‖) (h2 : sr < ‖sun - sat‖) :
    conical sat sun R sr = lit (Real.arcsin (sr / ‖sun - sat‖)) (Real.arcsin (R / ‖sat‖))
      (InnerProductGeometry.angle (sun - sat) (0 - sat)) := by
  have hd : 0 < ‖sat‖ := by linarith
  have hd2 : 0 < ‖sun - sat‖ := by linarith
  have e : Real.sqrt ((sun 0 - sat 0) * (sun 0 - sat 0) + (sun 1 - sat 1) * (sun 1 - sat 1) + (sun 2 - sat 2) * (sun 2 - sat 2))
      = ‖sun - sat‖ := by rw [← radius_eq]; rfl
  unfold conical
  simp only [radius_eq, e, if_neg hd.ne', if_neg hd2.ne']
  rw [min_eq_left (a := R / ‖sat‖) ((div_le_one hd).mpr h1.le), min_eq_left (a := sr / ‖sun - sat‖) ((div_le_one hd2).mpr h2.le)]
  congr 1
  rw [← Mission.sep_angle, inner_vec]
  have : ‖(0 : Vec3) - sat‖ = ‖sat‖ := by rw [zero_sub, norm_neg]
  rw [this]
  congr 2
  rw [mul_comm ‖sat‖]
  congr 1
  simp
  ring

/-- **C120**: the conical factor is the part of the solar disc left free by the disc of the Earth, for plane discs with the
angular radii and the angular distance seen from the satellite; it lies in [0, 1]. -/
theorem conical_covered {sat sun : Vec3} {R sr : ℝ} (hR : 0 < R) (hs : 0 < sr) (h1 : R < ‖sat‖) (h2 : sr < ‖sun - sat‖) :
    Mission.Spec.IsCovered (Real.arcsin (sr / ‖sun - sat‖)) (Real.arcsin (R / ‖sat‖))
      (InnerProductGeometry.angle (sun - sat) (0 - sat)) (1 - conical sat sun R sr) ∧
    0 ≤ conical sat sun R sr ∧ conical sat sun R sr ≤ 1 := by
  have p1 : 0 < Real.arcsin (sr / ‖sun - sat‖) := Real.arcsin_pos.mpr (div_pos hs (by linarith))
  have p2 : 0 < Real.arcsin (R / ‖sat‖) := Real.arcsin_pos.mpr (div_pos hR (by linarith))
  have p3 := InnerProductGeometry.angle_nonneg (sun - sat) (0 - sat)
  rw [conical_eq hR hs h1 h2, lit_eq p1 p2 p3]
  have hc := overlap_covered p1 p2.le p3
  have := covered_range p1 hc
  have := hc.1
  refine ⟨by rw [sub_sub_cancel]; exact hc, by linarith, by linarith⟩

/-- A direction at right angles. -/
theorem exists_orthogonal (u : Vec3) : ∃ e : Vec3, ‖e‖ = 1 ∧ inner ℝ u e = 0 := by
  by_cases h : u 0 = 0 ∧ u 1 = 0
  · refine ⟨!₂[1, 0, 0], norm_of_sq zero_le_one (by simp), ?_⟩
    rw [inner_vec]
    simp [h.1]
  · have hq : 0 < u 0 ^ 2 + u 1 ^ 2 := by
      by_contra hn
      push Not at hn
      apply h
      constructor <;> nlinarith [sq_nonneg (u 0), sq_nonneg (u 1)]
    set k := Real.sqrt (u 0 ^ 2 + u 1 ^ 2) with hk
    have hk0 : 0 < k := Real.sqrt_pos.mpr hq
    have hk2 : k ^ 2 = u 0 ^ 2 + u 1 ^ 2 := Real.sq_sqrt hq.le
    refine ⟨!₂[-u 1 / k, u 0 / k, 0], norm_of_sq zero_le_one ?_, ?_⟩
    · simp only [Matrix.cons_val_zero, Matrix.cons_val_one, Matrix.cons_val]
      field_simp
      linarith
    · rw [inner_vec]
      simp only [Matrix.cons_val_zero, Matrix.cons_val_one, Matrix.cons_val]
      ring

/-- Turning away from the second vector, also when both coincide. -/
theorem turn_away {u v : Vec3} (hu : ‖u‖ = 1) (hv : ‖v‖ = 1) (hpi : InnerProductGeometry.angle u v < Real.pi) (φ : ℝ) :
    ∃ w : Vec3, ‖w‖ = 1 ∧ inner ℝ w u = Real.cos φ ∧ inner ℝ w v = Real.cos (InnerProductGeometry.angle u v + φ) := by
  rcases (InnerProductGeometry.angle_nonneg u v).eq_or_lt with h0 | h0
  · have huv : u = v := by
      have := InnerProductGeometry.angle_eq_zero_iff.mp h0.symm
      obtain ⟨_, r, hr, hvr⟩ := this
      have hr1 : r = 1 := by
        rw [hvr, norm_smul, hu, mul_one, Real.norm_of_nonneg hr.le] at hv
        exact hv
      rw [hvr, hr1, one_smul]
    obtain ⟨e, he, hue⟩ := exists_orthogonal u
    have huu : inner ℝ u u = (1 : ℝ) := by rw [real_inner_self_eq_norm_sq, hu]; norm_num
    have hwu : inner ℝ (Real.cos φ • u + Real.sin φ • e) u = Real.cos φ := by
      rw [inner_add_left, real_inner_smul_left, real_inner_smul_left, huu, real_inner_comm u e, hue]
      ring
    refine ⟨Real.cos φ • u + Real.sin φ • e, ?_, hwu, ?_⟩
    · have : ‖Real.cos φ • u + Real.sin φ • e‖ ^ 2 = 1 ^ 2 := by
        rw [norm_add_sq_real, norm_smul, norm_smul, hu, he, real_inner_smul_left, real_inner_smul_right, hue,
          mul_one, mul_one, Real.norm_eq_abs, Real.norm_eq_abs, sq_abs, sq_abs]
        have := Real.sin_sq_add_cos_sq φ
        linarith
      exact (pow_left_inj₀ (norm_nonneg _) zero_le_one two_ne_zero).mp this
    · rw [← h0, zero_add, ← huv, hwu]
  · obtain ⟨w, h1, h2, h3⟩ := turn_towards hu hv h0 hpi (φ := -φ)
    exact ⟨w, h1, by rw [h2, Real.cos_neg], by rw [h3, sub_neg_eq_add]⟩

theorem unit_angle {u v : Vec3} (hu : ‖u‖ = 1) (hv : ‖v‖ = 1) {φ : ℝ} (h0 : 0 ≤ φ) (h1 : φ ≤ Real.pi)
    (h : inner ℝ u v = Real.cos φ) : InnerProductGeometry.angle u v = φ := by
  unfold InnerProductGeometry.angle
  rw [h, hu, hv, mul_one, div_one, Real.arccos_cos h0 h1]

/-- The angle at the satellite of a point of the line of sight is that of its end. -/
theorem segment_angle {sat p x : Vec3} (hx : x ∈ segment ℝ sat p) (hne : x ≠ sat) (c : Vec3) :
    InnerProductGeometry.angle (x - sat) c = InnerProductGeometry.angle (p - sat) c := by
  rw [segment_eq_image'] at hx
  obtain ⟨t, ht, rfl⟩ := hx
  have ht0 : 0 < t := by
    rcases ht.1.eq_or_lt with h | h
    · exfalso; apply hne; rw [← h]; simp
    · exact h
  rw [add_sub_cancel_left, InnerProductGeometry.angle_smul_left_of_pos _ _ ht0]

/-- **C120**: no light at all exactly in the umbra: the factor is zero if and only if every point of the Sun is hidden by
the Earth. -/
theorem umbra_exact {sat sun : Vec3} {R sr : ℝ} (hR : 0 < R) (hs : 0 < sr) (h1 : R < ‖sat‖)
    (hfar : ‖sat‖ + sr ≤ ‖sun - sat‖) :
    conical sat sun R sr = 0 ↔ Mission.Spec.WhollyHidden sat sun sr 0 R := by
  have hd : 0 < ‖sat‖ := by linarith
  have h2 : sr < ‖sun - sat‖ := by linarith
  have hd2 : 0 < ‖sun - sat‖ := by linarith
  have hsat : sat ≠ 0 := norm_pos_iff.mp hd
  have hss : sun - sat ≠ 0 := norm_pos_iff.mp hd2
  have p1 : 0 < Real.arcsin (sr / ‖sun - sat‖) := Real.arcsin_pos.mpr (div_pos hs (by linarith))
  have p2 : 0 < Real.arcsin (R / ‖sat‖) := Real.arcsin_pos.mpr (div_pos hR (by linarith))
  have p3 := InnerProductGeometry.angle_nonneg (sun - sat) (0 - sat)
  have q2 : Real.arcsin (R / ‖sat‖) < Real.pi / 2 := Real.arcsin_lt_pi_div_two.mpr ((div_lt_one hd).mpr h1)
  have q1 : Real.arcsin (sr / ‖sun - sat‖) < Real.pi / 2 := Real.arcsin_lt_pi_div_two.mpr ((div_lt_one hd2).mpr h2)
  have hneg : ‖(0 : Vec3) - sat‖ = ‖sat‖ := by rw [zero_sub, norm_neg]
  have hcov := conical_covered hR hs h1 h2
  have hsinβ : ‖(0 : Vec3) - sat‖ * Real.sin (Real.arcsin (R / ‖sat‖)) = R := by
    rw [Real.sin_arcsin (by linarith [div_pos hR hd]) ((div_le_one hd).mpr h1.le), hneg]
    field_simp
  have hsinα : ‖sun - sat‖ * Real.sin (Real.arcsin (sr / ‖sun - sat‖)) = sr := by
    rw [Real.sin_arcsin (by linarith [div_pos hs hd2]) ((div_le_one hd2).mpr h2.le)]
    field_simp
  set α := Real.arcsin (sr / ‖sun - sat‖) with hα
  set β := Real.arcsin (R / ‖sat‖) with hβ
  set θ := InnerProductGeometry.angle (sun - sat) (0 - sat) with hθ
  constructor
  · intro h0 p hp
    have hin : θ + α ≤ β := covered_one p1 p3 p2.le hcov.1 (by rw [h0]; norm_num)
    have hball : InnerProductGeometry.angle (p - sat) (sun - sat) ≤ α :=
      ball_angle hss hs.le h2 (by rw [sub_sub_sub_cancel_right, ← dist_eq_norm]; exact hp)
    have htri := InnerProductGeometry.angle_le_angle_add_angle (p - sat) (sun - sat) (0 - sat)
    apply hidden_of_angle (Ne.symm hsat) q2.le (by linarith) hsinβ.le
    rw [hneg]
    have := norm_sub_norm_le (sun - sat) (sun - p)
    rw [show sun - sat - (sun - p) = p - sat by abel] at this
    rw [dist_comm, dist_eq_norm] at hp
    linarith
  · intro hw
    by_contra h0
    have hout : β < θ + α := by
      by_contra hn
      push Not at hn
      apply h0
      rw [conical_eq hR hs h1 h2, ← hα, ← hβ, ← hθ]
      unfold lit
      rw [if_neg (by linarith), if_pos ⟨by linarith, by linarith⟩]
    -- a point of the Sun at a larger angle than the limb of the Earth
    have hpt : ∃ p, dist p sun ≤ sr ∧ β < InnerProductGeometry.angle (p - sat) (0 - sat) := by
      by_cases hθβ : β < θ
      · exact ⟨sun, by rw [dist_self]; exact hs.le, hθβ⟩
      push Not at hθβ
      set u : Vec3 := (1 / ‖sun - sat‖) • (sun - sat) with hu
      set v : Vec3 := (1 / ‖sat‖) • (0 - sat) with hv
      have hu1 : ‖u‖ = 1 := by rw [hu, norm_smul, Real.norm_of_nonneg (by positivity)]; field_simp
      have hv1 : ‖v‖ = 1 := by rw [hv, norm_smul, Real.norm_of_nonneg (by positivity), hneg]; field_simp
      have huv : InnerProductGeometry.angle u v = θ := by
        rw [hu, hv, InnerProductGeometry.angle_smul_left_of_pos _ _ (by positivity),
          InnerProductGeometry.angle_smul_right_of_pos _ _ (by positivity)]
      obtain ⟨w, w1, w2, w3⟩ := turn_away hu1 hv1 (by rw [huv]; linarith) α
      rw [huv] at w3
      have hwv := unit_angle w1 hv1 (by linarith) (by linarith) w3
      set k := ‖sun - sat‖ * Real.cos α with hk
      have hk0 : 0 < k := mul_pos hd2 (Real.cos_pos_of_mem_Ioo ⟨by linarith [Real.pi_pos], q1⟩)
      refine ⟨sat + k • w, ?_, ?_⟩
      · have hS : sun - sat = ‖sun - sat‖ • u := by rw [hu, smul_smul]; field_simp; simp
        have e : dist (sat + k • w) sun = ‖k • w - ‖sun - sat‖ • u‖ := by
          rw [dist_eq_norm, ← hS]
          congr 1
          abel
        rw [e]
        have hsq : ‖k • w - ‖sun - sat‖ • u‖ ^ 2 = sr ^ 2 := by
          rw [norm_sub_sq_real, norm_smul, norm_smul, real_inner_smul_left, real_inner_smul_right, w1, hu1, w2, hk,
            Real.norm_eq_abs, norm_norm, mul_one, mul_one, sq_abs]
          conv_rhs => rw [← hsinα]
          have := Real.sin_sq_add_cos_sq α
          linear_combination (-‖sun - sat‖ ^ 2) * this
        exact ((pow_left_inj₀ (norm_nonneg _) hs.le two_ne_zero).mp hsq).le
      · rw [add_sub_cancel_left, InnerProductGeometry.angle_smul_left_of_pos _ _ hk0]
        have : (0 : Vec3) - sat = ‖sat‖ • v := by rw [hv, smul_smul]; field_simp; simp
        rw [this, InnerProductGeometry.angle_smul_right_of_pos _ _ hd, hwv]
        linarith
    obtain ⟨p, hp, hang⟩ := hpt
    obtain ⟨x, hx, hxR⟩ := hw p hp
    have hne : x ≠ sat := by
      rintro rfl
      rw [dist_zero_right] at hxR
      linarith
    have := ball_angle (s := 0 - sat) (p := x - sat) (ρ := R) (by rw [zero_sub, neg_ne_zero]; exact hsat) hR.le
      (by rw [hneg]; exact h1) (by rw [sub_sub_sub_cancel_right, ← dist_eq_norm]; exact hxR)
    rw [segment_angle hx hne, hneg, ← hβ] at this
    linarith

/-- **C120**: full light exactly outside the penumbra: the factor is one if and only if the open ball of the Earth stops
the light of no point of the Sun. -/
theorem light_exact {sat sun : Vec3} {R sr : ℝ} (hR : 0 < R) (hs : 0 < sr) (h1 : R < ‖sat‖)
    (hfar : ‖sat‖ + sr ≤ ‖sun - sat‖) :
    conical sat sun R sr = 1 ↔ ∀ p, dist p sun ≤ sr → ¬ Spec.Stopped sat p R := by
  have hd : 0 < ‖sat‖ := by linarith
  have h2 : sr < ‖sun - sat‖ := by linarith
  have hd2 : 0 < ‖sun - sat‖ := by linarith
  have hsat : sat ≠ 0 := norm_pos_iff.mp hd
  have hss : sun - sat ≠ 0 := norm_pos_iff.mp hd2
  have p1 : 0 < Real.arcsin (sr / ‖sun - sat‖) := Real.arcsin_pos.mpr (div_pos hs (by linarith))
  have p2 : 0 < Real.arcsin (R / ‖sat‖) := Real.arcsin_pos.mpr (div_pos hR (by linarith))
  have p3 := InnerProductGeometry.angle_nonneg (sun - sat) (0 - sat)
  have q2 : Real.arcsin (R / ‖sat‖) < Real.pi / 2 := Real.arcsin_lt_pi_div_two.mpr ((div_lt_one hd).mpr h1)
  have q1 : Real.arcsin (sr / ‖sun - sat‖) < Real.pi / 2 := Real.arcsin_lt_pi_div_two.mpr ((div_lt_one hd2).mpr h2)
  have hneg : ‖(0 : Vec3) - sat‖ = ‖sat‖ := by rw [zero_sub, norm_neg]
  have hcov := conical_covered hR hs h1 h2
  have hpos := covered_pos p1 p2 p3 hcov.1
  have hsinβ : ‖(0 : Vec3) - sat‖ * Real.sin (Real.arcsin (R / ‖sat‖)) = R := by
    rw [Real.sin_arcsin (by linarith [div_pos hR hd]) ((div_le_one hd).mpr h1.le), hneg]
    field_simp
  have hsinα : ‖sun - sat‖ * Real.sin (Real.arcsin (sr / ‖sun - sat‖)) = sr := by
    rw [Real.sin_arcsin (by linarith [div_pos hs hd2]) ((div_le_one hd2).mpr h2.le)]
    field_simp
  have hmono : ∀ ρ, 0 ≤ ρ → ρ < R → Real.arcsin (ρ / ‖sat‖) < Real.arcsin (R / ‖sat‖) := by
    intro ρ h0 h
    apply Real.strictMonoOn_arcsin ⟨by linarith [div_nonneg h0 hd.le], (div_le_one hd).mpr (by linarith)⟩
      ⟨by linarith [div_nonneg hR.le hd.le], (div_le_one hd).mpr h1.le⟩
    exact div_lt_div_of_pos_right h hd
  set α := Real.arcsin (sr / ‖sun - sat‖) with hα
  set β := Real.arcsin (R / ‖sat‖) with hβ
  set θ := InnerProductGeometry.angle (sun - sat) (0 - sat) with hθ
  constructor
  · rintro h p hp ⟨x, hx, hxR⟩
    have hge : α + β ≤ θ := by
      by_contra hn
      push Not at hn
      have := hpos.mpr hn
      linarith
    have hball : InnerProductGeometry.angle (p - sat) (sun - sat) ≤ α :=
      ball_angle hss hs.le h2 (by rw [sub_sub_sub_cancel_right, ← dist_eq_norm]; exact hp)
    have htri := InnerProductGeometry.angle_le_angle_add_angle (sun - sat) (p - sat) (0 - sat)
    rw [InnerProductGeometry.angle_comm] at hball
    have hne : x ≠ sat := by rintro rfl; linarith
    have h3 := ball_angle (s := 0 - sat) (p := x - sat) (ρ := ‖x‖) (by rw [zero_sub, neg_ne_zero]; exact hsat)
      (norm_nonneg _) (by rw [hneg]; linarith) (by rw [sub_sub_sub_cancel_right, sub_zero])
    rw [segment_angle hx hne, hneg] at h3
    have := hmono _ (norm_nonneg x) hxR
    linarith
  · intro hseen
    by_contra hne1
    have hlt : θ < α + β := by
      apply hpos.mp
      have := hcov.2.2
      have : conical sat sun R sr < 1 := lt_of_le_of_ne this hne1
      linarith
    -- a point of the Sun nearer to the centre of the Earth's disc than its limb
    have hpt : ∃ p, dist p sun ≤ sr ∧ ‖sat‖ ≤ ‖p - sat‖ ∧ InnerProductGeometry.angle (p - sat) (0 - sat) < β := by
      by_cases hθβ : θ < β
      · exact ⟨sun, by rw [dist_self]; exact hs.le, by linarith, hθβ⟩
      push Not at hθβ
      have hθ0 : 0 < θ := by linarith
      set u : Vec3 := (1 / ‖sun - sat‖) • (sun - sat) with hu
      set v : Vec3 := (1 / ‖sat‖) • (0 - sat) with hv
      have hu1 : ‖u‖ = 1 := by rw [hu, norm_smul, Real.norm_of_nonneg (by positivity)]; field_simp
      have hv1 : ‖v‖ = 1 := by rw [hv, norm_smul, Real.norm_of_nonneg (by positivity), hneg]; field_simp
      have huv : InnerProductGeometry.angle u v = θ := by
        rw [hu, hv, InnerProductGeometry.angle_smul_left_of_pos _ _ (by positivity),
          InnerProductGeometry.angle_smul_right_of_pos _ _ (by positivity)]
      obtain ⟨φ, hφ⟩ : ∃ φ, φ = min α θ := ⟨_, rfl⟩
      have hφ0 : 0 < φ := by rw [hφ]; exact lt_min p1 hθ0
      have hφα : φ ≤ α := by rw [hφ]; exact min_le_left _ _
      have hφθ : φ ≤ θ := by rw [hφ]; exact min_le_right _ _
      have hφβ : θ - φ < β := by
        rw [hφ]
        rcases min_choice α θ with h | h <;> rw [h] <;> linarith
      obtain ⟨w, w1, w2, w3⟩ := turn_towards hu1 hv1 (by rw [huv]; exact hθ0) (by rw [huv]; linarith) (φ := φ)
      rw [huv] at w3
      have hwv := unit_angle w1 hv1 (by linarith) (by linarith) w3
      set k := ‖sun - sat‖ * Real.cos φ with hk
      have hcosφ : 0 < Real.cos φ := Real.cos_pos_of_mem_Ioo ⟨by linarith [Real.pi_pos], by linarith⟩
      have hk0 : 0 < k := mul_pos hd2 hcosφ
      have hsinφ : Real.sin φ ≤ Real.sin α :=
        Real.strictMonoOn_sin.monotoneOn ⟨by linarith [Real.pi_pos], by linarith⟩ ⟨by linarith [Real.pi_pos], q1.le⟩ hφα
      have hsinφ0 : 0 ≤ Real.sin φ := Real.sin_nonneg_of_nonneg_of_le_pi hφ0.le (by linarith)
      have hdist : dist (sat + k • w) sun ≤ sr := by
        have hS : sun - sat = ‖sun - sat‖ • u := by rw [hu, smul_smul]; field_simp; simp
        have e : dist (sat + k • w) sun = ‖k • w - ‖sun - sat‖ • u‖ := by
          rw [dist_eq_norm, ← hS]
          congr 1
          abel
        rw [e]
        have hsq : ‖k • w - ‖sun - sat‖ • u‖ ^ 2 = (‖sun - sat‖ * Real.sin φ) ^ 2 := by
          rw [norm_sub_sq_real, norm_smul, norm_smul, real_inner_smul_left, real_inner_smul_right, w1, hu1, w2, hk,
            Real.norm_eq_abs, norm_norm, mul_one, mul_one, sq_abs]
          have := Real.sin_sq_add_cos_sq φ
          linear_combination (-‖sun - sat‖ ^ 2) * this
        rw [(pow_left_inj₀ (norm_nonneg _) (by positivity) two_ne_zero).mp hsq, ← hsinα]
        exact mul_le_mul_of_nonneg_left hsinφ hd2.le
      refine ⟨sat + k • w, hdist, ?_, ?_⟩
      · have := norm_sub_norm_le (sun - sat) (sun - (sat + k • w))
        rw [show sun - sat - (sun - (sat + k • w)) = (sat + k • w) - sat by abel] at this
        rw [dist_comm, dist_eq_norm] at hdist
        linarith
      · rw [add_sub_cancel_left, InnerProductGeometry.angle_smul_left_of_pos _ _ hk0]
        have : (0 : Vec3) - sat = ‖sat‖ • v := by rw [hv, smul_smul]; field_simp; simp
        rw [this, InnerProductGeometry.angle_smul_right_of_pos _ _ hd, hwv]
        linarith
    obtain ⟨p, hp, hfarp, hang⟩ := hpt
    have hang0 := InnerProductGeometry.angle_nonneg (p - sat) (0 - sat)
    obtain ⟨x, hx, hxR⟩ := hidden_of_angle (p := p) (Ne.symm hsat) (show InnerProductGeometry.angle (p - sat) (0 - sat) ≤ _ by linarith) le_rfl le_rfl (by rw [hneg]; exact hfarp)
    refine hseen p hp ⟨x, hx, ?_⟩
    rw [dist_zero_right] at hxR
    have : Real.sin (InnerProductGeometry.angle (p - sat) (0 - sat)) < Real.sin β :=
      Real.strictMonoOn_sin ⟨by linarith [Real.pi_pos], by linarith⟩ ⟨by linarith [Real.pi_pos], q2.le⟩ hang
    calc ‖x‖ ≤ _ := hxR
      _ < ‖(0 : Vec3) - sat‖ * Real.sin β := mul_lt_mul_of_pos_left this (by rw [hneg]; exact hd)
      _ = R := hsinβ

end Verif.Forces
