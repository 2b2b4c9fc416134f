import Verif.Mission.Shadow
import Verif.Mission.Horizon
import Mathlib.Analysis.InnerProductSpace.Calculus
import Mathlib.Analysis.Calculus.Deriv.Prod

/-!
# Mission geometry
-/

namespace Verif.Mission

open Set

/-! ## C107: occultation and eclipse -/

theorem vec_eq {a b : Vec3} (h0 : a 0 = b 0) (h1 : a 1 = b 1) (h2 : a 2 = b 2) : a = b := by
  ext i
  fin_cases i
  · exact h0
  · exact h1
  · exact h2

theorem inner_vec (a b : Vec3) : inner ℝ a b = a 0 * b 0 + a 1 * b 1 + a 2 * b 2 := by
  simp [PiLp.inner_apply, Fin.sum_univ_three]
  ring

theorem norm_sq_vec (a : Vec3) : ‖a‖ ^ 2 = a 0 ^ 2 + a 1 ^ 2 + a 2 ^ 2 := by
  rw [← real_inner_self_eq_norm_sq, inner_vec]
  ring

theorem sep_angle (a b : Vec3) :
    Real.arccos (clamp (inner ℝ a b / (‖a‖ * ‖b‖)) (-1) 1) = InnerProductGeometry.angle a b := by
  have h := abs_le.mp (abs_real_inner_div_norm_mul_norm_le_one a b)
  rw [clamp_inside h.1 h.2]
  rfl

/-- **C107**: the fraction is the part of the first disc covered by the second, for plane discs at the
angular distance of the bodies with the arc tangent of radius over distance as radii. -/
theorem occultation_partial {obs target occ : Vec3} {tr r : ℝ} (ht : target ≠ obs) (ho : occ ≠ obs)
    (htr : 0 < tr) (hr : 0 ≤ r) :
    Spec.IsCovered (Real.arctan (tr / dist target obs)) (Real.arctan (r / dist occ obs))
      (InnerProductGeometry.angle (target - obs) (occ - obs)) (occultationFraction obs target tr occ r) := by
  have h1 : 0 < ‖target - obs‖ := norm_pos_iff.mpr (sub_ne_zero.mpr ht)
  have h2 : 0 < ‖occ - obs‖ := norm_pos_iff.mpr (sub_ne_zero.mpr ho)
  unfold occultationFraction
  simp only
  rw [if_neg (by rintro (h | h) <;> linarith), sep_angle, dist_eq_norm, dist_eq_norm]
  apply overlap_covered
  · rw [Real.arctan_pos]; positivity
  · rw [Real.arctan_nonneg]; positivity
  · exact InnerProductGeometry.angle_nonneg _ _

/-- **C107**: the fraction is between zero and one, whatever the positions. -/
theorem occultation_range {tr r : ℝ} (htr : 0 < tr) (hr : 0 ≤ r) (obs target occ : Vec3) :
    0 ≤ occultationFraction obs target tr occ r ∧ occultationFraction obs target tr occ r ≤ 1 := by
  by_cases ht : target = obs
  · unfold occultationFraction
    simp [ht]
  · by_cases ho : occ = obs
    · unfold occultationFraction
      simp [ho]
    · have h := occultation_partial ht ho htr hr
      refine ⟨h.1, covered_range ?_ h⟩
      rw [Real.arctan_pos]
      exact div_pos htr (dist_pos.mpr ht)

/-- **C107**: the classes of eclipse in terms of the discs: sunlight exactly when they do not overlap,
umbra whenever the second covers the first. -/
theorem eclipse_classes_partial {sat sun occ : Vec3} {sr r : ℝ} (ht : sun ≠ sat) (ho : occ ≠ sat) (hs : 0 < sr)
    (hr : 0 < r) :
    (eclipseState sat sun sr occ r = .sunlight ↔
      Real.arctan (sr / dist sun sat) + Real.arctan (r / dist occ sat)
        ≤ InnerProductGeometry.angle (sun - sat) (occ - sat)) ∧
    (InnerProductGeometry.angle (sun - sat) (occ - sat) + Real.arctan (sr / dist sun sat)
        ≤ Real.arctan (r / dist occ sat) → eclipseState sat sun sr occ r = .umbra) ∧
    (solarEclipsing sat sun sr occ r = true ↔ eclipseState sat sun sr occ r ≠ .sunlight) := by
  have hc := occultation_partial ht ho hs hr.le
  have ha : 0 < Real.arctan (sr / dist sun sat) := by
    rw [Real.arctan_pos]; exact div_pos hs (dist_pos.mpr ht)
  have hb : 0 < Real.arctan (r / dist occ sat) := by
    rw [Real.arctan_pos]; exact div_pos hr (dist_pos.mpr ho)
  have hpos := covered_pos ha hb (InnerProductGeometry.angle_nonneg _ _) hc
  refine ⟨?_, ?_, ?_⟩
  · have : eclipseState sat sun sr occ r = .sunlight ↔ ¬ 0 < occultationFraction sat sun sr occ r := by
      unfold eclipseState
      simp only
      constructor
      · intro h
        split at h
        · exact absurd h (by decide)
        · split at h
          · exact absurd h (by decide)
          · assumption
      · intro h
        rw [if_neg (by norm_num at h ⊢; linarith), if_neg h]
    rw [this, hpos, not_lt]
  · intro h
    have hone : Spec.IsCovered (Real.arctan (sr / dist sun sat)) (Real.arctan (r / dist occ sat))
        (InnerProductGeometry.angle (sun - sat) (occ - sat)) 1 := by
      refine ⟨zero_le_one, ?_⟩
      rw [ENNReal.ofReal_one, one_mul]
      congr 1
      symm
      rw [inter_eq_left]
      apply Metric.closedBall_subset_closedBall'
      rw [dist_zero_left, Complex.norm_real, Real.norm_of_nonneg (InnerProductGeometry.angle_nonneg _ _)]
      linarith
    have := covered_unique ha hc hone
    unfold eclipseState
    simp only
    rw [this, if_pos (by norm_num)]
  · unfold solarEclipsing
    rw [decide_eq_true_eq]

/-- **C107**: no false umbra: when the fraction is one and the Sun is farther than the body, every point of the
Sun is hidden behind the body. -/
theorem umbra_sound {sat sun occ : Vec3} {sr r : ℝ} (hs : 0 < sr) (hr : 0 < r)
    (hfar : dist occ sat + sr ≤ dist sun sat) (h : occultationFraction sat sun sr occ r = 1) :
    Spec.WhollyHidden sat sun sr occ r := by
  intro p hp
  by_cases hin : dist sat occ ≤ r
  · exact ⟨sat, left_mem_segment ℝ sat p, hin⟩
  push Not at hin
  rw [dist_comm] at hin
  have hod : 0 < dist occ sat := hr.trans hin
  have hsd : 0 < dist sun sat := by linarith
  have ho : occ ≠ sat := dist_pos.mp hod
  have ht : sun ≠ sat := dist_pos.mp hsd
  have hc := occultation_partial ht ho hs hr.le
  have hcov := covered_one (by rw [Real.arctan_pos]; exact div_pos hs hsd) (InnerProductGeometry.angle_nonneg _ _)
    (by rw [Real.arctan_nonneg]; positivity) hc h
  have hx0 : 0 ≤ sr / dist sun sat := by positivity
  have hy1 : r / dist occ sat < 1 := (div_lt_one hod).mpr hin
  have hxy : sr / dist sun sat ≤ r / dist occ sat := by
    by_contra hn
    push Not at hn
    have := Real.arctan_strictMono hn
    linarith [InnerProductGeometry.angle_nonneg (sun - sat) (occ - sat)]
  have hg := arcsin_sub_arctan_mono ⟨hx0, hxy.trans_lt hy1⟩ ⟨hx0.trans hxy, hy1⟩ hxy
  simp only at hg
  have hball : InnerProductGeometry.angle (p - sat) (sun - sat) ≤ Real.arcsin (sr / dist sun sat) := by
    rw [dist_eq_norm sun sat]
    apply ball_angle (sub_ne_zero.mpr ht) hs.le
    · rw [← dist_eq_norm]; linarith
    · rw [sub_sub_sub_cancel_right, ← dist_eq_norm]; exact hp
  have htri := InnerProductGeometry.angle_le_angle_add_angle (p - sat) (sun - sat) (occ - sat)
  apply hidden_of_angle ho (Real.arcsin_le_pi_div_two (r / dist occ sat)) (by linarith)
  · rw [Real.sin_arcsin (by linarith [hx0.trans hxy]) hy1.le, ← dist_eq_norm]
    field_simp
    exact le_rfl
  · rw [← dist_eq_norm, ← dist_eq_norm]
    have := dist_triangle sun p sat
    rw [dist_comm sun p] at this
    linarith

/-- **C107**: no false eclipse: when an eclipse of either kind is reported and the Sun is farther than the body,
some point of the Sun is hidden behind the body. -/
theorem eclipse_sound {sat sun occ : Vec3} {sr r : ℝ} (hs : 0 < sr) (hr : 0 < r)
    (hfar : dist occ sat + sr ≤ dist sun sat) (h : solarEclipsing sat sun sr occ r = true) :
    ∃ p, dist p sun ≤ sr ∧ Spec.Hidden sat p occ r := by
  by_cases hin : dist sat occ ≤ r
  · exact ⟨sun, by rw [dist_self]; exact hs.le, sat, left_mem_segment ℝ sat sun, hin⟩
  push Not at hin
  rw [dist_comm] at hin
  have hod : 0 < dist occ sat := hr.trans hin
  have hsd : 0 < dist sun sat := by linarith
  have ho : occ ≠ sat := dist_pos.mp hod
  have ht : sun ≠ sat := dist_pos.mp hsd
  obtain ⟨hc1, _, hc3⟩ := eclipse_classes_partial ht ho hs hr
  have hlt : InnerProductGeometry.angle (sun - sat) (occ - sat)
      < Real.arctan (sr / dist sun sat) + Real.arctan (r / dist occ sat) := by
    by_contra hn
    push Not at hn
    exact (hc3.mp h) (hc1.mpr hn)
  have hx0 : 0 ≤ sr / dist sun sat := by positivity
  have hx1 : sr / dist sun sat < 1 := (div_lt_one hsd).mpr (by linarith)
  have hy0 : 0 ≤ r / dist occ sat := by positivity
  have hy1 : r / dist occ sat < 1 := (div_lt_one hod).mpr hin
  have a1 := arctan_le_arcsin hx0 hx1
  have a2 := arctan_le_arcsin hy0 hy1
  set θ := InnerProductGeometry.angle (sun - sat) (occ - sat) with hθ
  set β := Real.arcsin (r / dist occ sat) with hβ
  have hβ2 : β ≤ Real.pi / 2 := Real.arcsin_le_pi_div_two _
  have hsinβ : ‖occ - sat‖ * Real.sin β ≤ r := by
    rw [hβ, Real.sin_arcsin (by linarith) hy1.le, ← dist_eq_norm]
    field_simp
    exact le_rfl
  by_cases hle : θ ≤ β
  · refine ⟨sun, by rw [dist_self]; exact hs.le, ?_⟩
    apply hidden_of_angle ho hβ2 hle hsinβ
    rw [← dist_eq_norm, ← dist_eq_norm]
    linarith
  push Not at hle
  have hβ0 : 0 ≤ β := Real.arcsin_nonneg.mpr hy0
  have hsn : 0 < ‖sun - sat‖ := by rw [← dist_eq_norm]; exact hsd
  have hon : 0 < ‖occ - sat‖ := by rw [← dist_eq_norm]; exact hod
  have hpi := Real.pi_pos
  have at1 : Real.arctan (sr / dist sun sat) < Real.pi / 2 := Real.arctan_lt_pi_div_two _
  have at2 : Real.arctan (r / dist occ sat) < Real.pi / 2 := Real.arctan_lt_pi_div_two _
  set u := (1 / ‖sun - sat‖) • (sun - sat) with hu
  set v := (1 / ‖occ - sat‖) • (occ - sat) with hv
  have hun : ‖u‖ = 1 := by
    rw [hu, norm_smul, Real.norm_of_nonneg (by positivity)]
    field_simp
  have hvn : ‖v‖ = 1 := by
    rw [hv, norm_smul, Real.norm_of_nonneg (by positivity)]
    field_simp
  have huv : InnerProductGeometry.angle u v = θ := by
    rw [hu, hv, InnerProductGeometry.angle_smul_left_of_pos _ _ (by positivity),
      InnerProductGeometry.angle_smul_right_of_pos _ _ (by positivity)]
  obtain ⟨w, hw1, hwu, hwv⟩ := turn_towards hun hvn (by rw [huv]; linarith) (by rw [huv]; linarith) (φ := θ - β)
  rw [huv, sub_sub_cancel] at hwv
  set φ := θ - β with hφ
  have hφ0 : 0 ≤ φ := by linarith
  have hφ1 : φ ≤ Real.arcsin (sr / dist sun sat) := by linarith
  have hφ2 : φ ≤ Real.pi / 2 := hφ1.trans (Real.arcsin_le_pi_div_two _)
  have hcφ : 0 ≤ Real.cos φ := Real.cos_nonneg_of_neg_pi_div_two_le_of_le (by linarith) hφ2
  have hsφ : Real.sin φ ≤ sr / dist sun sat := by
    have := Real.strictMonoOn_sin.monotoneOn ⟨by linarith, hφ2⟩
      ⟨by linarith, Real.arcsin_le_pi_div_two (sr / dist sun sat)⟩ hφ1
    rwa [Real.sin_arcsin (by linarith) hx1.le] at this
  have hsφ0 : 0 ≤ Real.sin φ := Real.sin_nonneg_of_nonneg_of_le_pi hφ0 (by linarith)
  have hq := Real.sin_sq_add_cos_sq φ
  -- the point of the line of sight nearest to the centre of the Sun
  have hwsun : inner ℝ w (sun - sat) = ‖sun - sat‖ * Real.cos φ := by
    rw [← hwu, hu, real_inner_smul_right]
    field_simp
  have hdistp : dist (sat + (‖sun - sat‖ * Real.cos φ) • w) sun ≤ sr := by
    have e : dist (sat + (‖sun - sat‖ * Real.cos φ) • w) sun = ‖(‖sun - sat‖ * Real.cos φ) • w - (sun - sat)‖ := by
      rw [dist_eq_norm]
      congr 1
      abel
    have hsq : ‖(‖sun - sat‖ * Real.cos φ) • w - (sun - sat)‖ ^ 2 = (‖sun - sat‖ * Real.sin φ) ^ 2 := by
      rw [norm_sub_sq_real, norm_smul, real_inner_smul_left, hwsun, hw1, Real.norm_eq_abs, mul_one, sq_abs]
      nlinarith
    rw [e, (pow_left_inj₀ (norm_nonneg _) (by positivity) two_ne_zero).mp hsq]
    rw [dist_eq_norm] at hsφ
    rw [le_div_iff₀ hsn] at hsφ
    linarith
  refine ⟨sat + (‖sun - sat‖ * Real.cos φ) • w, hdistp, ?_⟩
  have hnorm : dist occ sat ≤ dist (sat + (‖sun - sat‖ * Real.cos φ) • w) sat := by
    have := dist_triangle sun (sat + (‖sun - sat‖ * Real.cos φ) • w) sat
    rw [dist_comm sun (sat + _)] at this
    linarith
  have hsub : sat + (‖sun - sat‖ * Real.cos φ) • w - sat = (‖sun - sat‖ * Real.cos φ) • w := add_sub_cancel_left _ _
  have hkpos : 0 < ‖sun - sat‖ * Real.cos φ := by
    rcases hcφ.eq_or_lt with h0 | h0
    · rw [← h0, mul_zero, zero_smul, add_zero, dist_self] at hnorm
      linarith
    · positivity
  apply hidden_of_angle ho hβ2 _ hsinβ
  · rw [← dist_eq_norm, ← dist_eq_norm]
    exact hnorm
  · rw [hsub, InnerProductGeometry.angle_smul_left_of_pos _ _ hkpos]
    have : InnerProductGeometry.angle w (occ - sat) = InnerProductGeometry.angle w v := by
      rw [hv, InnerProductGeometry.angle_smul_right_of_pos _ _ (by positivity)]
    rw [this]
    unfold InnerProductGeometry.angle
    rw [hwv, hw1, hvn, mul_one, div_one, Real.arccos_cos hβ0 (by linarith)]

/-- A satellite 266 km above a planet of radius 6378 km, with the Sun 53° from the direction of the planet's
centre. -/
noncomputable def lowSat : Vec3 := !₂[-6643.75, 0, 0]

noncomputable def lowSun : Vec3 := !₂[-6643.75 + 89760000, 119680000, 0]

theorem norm_of_sq {v : Vec3} {n : ℝ} (hn : 0 ≤ n) (h : v 0 ^ 2 + v 1 ^ 2 + v 2 ^ 2 = n ^ 2) : ‖v‖ = n := by
  have := norm_sq_vec v
  rw [h] at this
  exact (pow_left_inj₀ (norm_nonneg v) hn two_ne_zero).mp this

theorem lowSun_apart : ‖lowSun - lowSat‖ = 149600000 := by
  apply norm_of_sq (by norm_num)
  simp [lowSun, lowSat]
  norm_num

theorem lowSat_apart : ‖(0 : Vec3) - lowSat‖ = 6643.75 := by
  apply norm_of_sq (by norm_num)
  simp [lowSat]

/-- A satellite behind the planet, on the far side from the Sun. -/
noncomputable def darkSat : Vec3 := !₂[-10000, 0, 0]

noncomputable def darkSun : Vec3 := !₂[149600000, 0, 0]

example : occultationFraction darkSat darkSun 696000 0 6378 = 1 ∧
    dist (0 : Vec3) darkSat + 696000 ≤ dist darkSun darkSat := by
  have h1 : ‖darkSun - darkSat‖ = 149610000 := by
    apply norm_of_sq (by norm_num)
    simp [darkSun, darkSat]
    norm_num
  have h2 : ‖(0 : Vec3) - darkSat‖ = 10000 := by
    apply norm_of_sq (by norm_num)
    simp [darkSat]
  have hin : inner ℝ (darkSun - darkSat) (0 - darkSat) = 149610000 * 10000 := by
    rw [inner_vec]
    simp [darkSun, darkSat]
    norm_num
  constructor
  · unfold occultationFraction
    simp only
    rw [hin, h1, h2, if_neg (by norm_num), div_self (by norm_num), clamp_inside (by norm_num) le_rfl,
      Real.arccos_one]
    unfold overlapFraction
    simp only
    have ha : 0 < Real.arctan (696000 / 149610000) := by rw [Real.arctan_pos]; norm_num
    have hb : Real.arctan (696000 / 149610000) < Real.arctan (6378 / 10000) :=
      Real.arctan_strictMono (by norm_num)
    rw [if_neg (by linarith), if_pos (by linarith)]
  · rw [dist_eq_norm, dist_eq_norm, h1, h2]
    norm_num

/-- **C107** (finding): a satellite from which the whole Sun is hidden behind the planet is reported as
fully illuminated, because the angular radius of the planet is taken as the arc tangent of radius over distance
(at most 45°) instead of the arc sine. -/
theorem shadow_missed :
    eclipseState lowSat lowSun 696000 0 6378 = .sunlight ∧
    solarEclipsing lowSat lowSun 696000 0 6378 = false ∧
    Spec.WhollyHidden lowSat lowSun 696000 0 6378 ∧
    obstructed lowSat lowSun 6378 = true := by
  have h1 := lowSun_apart
  have h2 := lowSat_apart
  have hne1 : lowSun ≠ lowSat := fun h => by rw [h, sub_self, norm_zero] at h1; norm_num at h1
  have hne2 : (0 : Vec3) ≠ lowSat := fun h => by rw [← h, sub_self, norm_zero] at h2; norm_num at h2
  have hin : inner ℝ (lowSun - lowSat) (0 - lowSat) = 149600000 * 6643.75 * (3 / 5) := by
    rw [inner_vec]
    simp [lowSun, lowSat]
    norm_num
  have hang : InnerProductGeometry.angle (lowSun - lowSat) (0 - lowSat) = Real.arctan (4 / 3) := by
    unfold InnerProductGeometry.angle
    rw [hin, h1, h2, mul_comm (149600000 * 6643.75 : ℝ), mul_div_assoc, div_self (by norm_num), mul_one]
    rw [Real.arccos_eq_arctan (by norm_num)]
    congr 1
    rw [show (1 - (3 / 5 : ℝ) ^ 2) = (4 / 5) ^ 2 by norm_num, Real.sqrt_sq (by norm_num)]
    norm_num
  have hs : eclipseState lowSat lowSun 696000 0 6378 = .sunlight := by
    refine (eclipse_classes_partial hne1 hne2 (by norm_num) (by norm_num)).1.mpr ?_
    rw [hang, dist_eq_norm, dist_eq_norm, h1, h2, Real.arctan_add (by norm_num)]
    apply Real.arctan_strictMono.monotone
    norm_num
  have hh : Spec.WhollyHidden lowSat lowSun 696000 0 6378 := by
    intro p hp
    have ht : (3986.25 / 149600000 : ℝ) ∈ Icc (0 : ℝ) 1 := by constructor <;> norm_num
    refine ⟨lowSat + (3986.25 / 149600000 : ℝ) • (p - lowSat), ?_, ?_⟩
    · rw [segment_eq_image']
      exact ⟨_, ht, rfl⟩
    · have e : lowSat + (3986.25 / 149600000 : ℝ) • (p - lowSat)
          = (lowSat + (3986.25 / 149600000 : ℝ) • (lowSun - lowSat)) + (3986.25 / 149600000 : ℝ) • (p - lowSun) := by
        module
      have n1 : ‖lowSat + (3986.25 / 149600000 : ℝ) • (lowSun - lowSat)‖ = 5315 := by
        apply norm_of_sq (by norm_num)
        simp [lowSun, lowSat]
        norm_num
      rw [dist_zero_right, e]
      refine (norm_add_le _ _).trans ?_
      rw [n1, norm_smul, Real.norm_of_nonneg ht.1, ← dist_eq_norm]
      have : (3986.25 / 149600000 : ℝ) * dist p lowSun ≤ 3986.25 / 149600000 * 696000 :=
        mul_le_mul_of_nonneg_left hp ht.1
      norm_num at this ⊢
      linarith
  refine ⟨hs, ?_, hh, ?_⟩
  · unfold solarEclipsing
    rw [hs]
    rfl
  · exact (obstructed_iff _ _ (by norm_num)).mpr (hh lowSun (by rw [dist_self]; norm_num))

/-- **C107** (finding): a body beyond the target is counted as hiding it. -/
theorem farther_body_hides :
    ∃ obs target occ : Vec3, ∃ tr r : ℝ, 0 < tr ∧ 0 < r ∧ Spec.WhollySeen obs target tr occ r ∧
      occultationFraction obs target tr occ r = 1 := by
  have n1 : ‖(!₂[1, 0, 0] : Vec3) - 0‖ = 1 := by
    apply norm_of_sq (by norm_num)
    simp
  have n2 : ‖(!₂[10, 0, 0] : Vec3) - 0‖ = 10 := by
    apply norm_of_sq (by norm_num)
    simp
  refine ⟨0, !₂[1, 0, 0], !₂[10, 0, 0], 1 / 10, 5, by norm_num, by norm_num, ?_, ?_⟩
  · rintro p hp ⟨x, hx, hd⟩
    rw [segment_eq_image'] at hx
    obtain ⟨t, ⟨h0, h1⟩, rfl⟩ := hx
    have hpn : ‖p‖ ≤ 1.1 := by
      have : ‖p‖ ≤ dist p !₂[1, 0, 0] + ‖(!₂[1, 0, 0] : Vec3)‖ := by
        rw [dist_eq_norm]
        have := norm_add_le (p - !₂[1, 0, 0]) (!₂[1, 0, 0] : Vec3)
        rwa [sub_add_cancel] at this
      rw [sub_zero] at n1
      rw [n1] at this
      linarith
    have hxn : ‖(0 : Vec3) + t • (p - 0)‖ ≤ 1.1 := by
      rw [zero_add, sub_zero, norm_smul, Real.norm_of_nonneg h0]
      nlinarith [norm_nonneg p]
    have : ‖(!₂[10, 0, 0] : Vec3)‖ ≤ dist ((0 : Vec3) + t • (p - 0)) !₂[10, 0, 0] + ‖(0 : Vec3) + t • (p - 0)‖ := by
      rw [dist_comm, dist_eq_norm]
      simpa using norm_add_le ((!₂[10, 0, 0] : Vec3) - ((0 : Vec3) + t • (p - 0))) ((0 : Vec3) + t • (p - 0))
    rw [sub_zero] at n2
    rw [n2] at this
    linarith
  · unfold occultationFraction
    simp only
    rw [n1, n2, if_neg (by norm_num)]
    have hin : inner ℝ ((!₂[1, 0, 0] : Vec3) - 0) ((!₂[10, 0, 0] : Vec3) - 0) = 10 := by
      rw [inner_vec]
      simp
    rw [hin, clamp_inside (by norm_num) (by norm_num)]
    have h1 : 0 < Real.arctan (1 / 10 / 1) := by rw [Real.arctan_pos]; norm_num
    have h2 : Real.arctan (1 / 10 / 1) < Real.arctan (5 / 10) := Real.arctan_strictMono (by norm_num)
    have h3 : Real.arccos (10 / (1 * 10)) = 0 := by norm_num
    rw [h3]
    unfold overlapFraction
    simp only
    rw [if_neg (by linarith), if_pos (by linarith)]

/-! ## C108: lines of sight -/

/-- **C108**: the obstruction test is symmetric, and no body of non-negative radius hides a point from itself
unless the point is inside. -/
theorem obstructed_symm (a b : Vec3) {r : ℝ} (hr : 0 ≤ r) : obstructed a b r = obstructed b a r := by
  rw [Bool.eq_iff_iff, obstructed_iff a b hr, obstructed_iff b a hr]
  unfold Spec.Hidden
  rw [segment_symm]

/-- **C108**: a larger body obstructs more. -/
theorem obstructed_mono (a b : Vec3) {r s : ℝ} (hr : 0 ≤ r) (h : r ≤ s) (ho : obstructed a b r = true) :
    obstructed a b s = true := by
  rw [obstructed_iff a b hr] at ho
  rw [obstructed_iff a b (hr.trans h)]
  obtain ⟨x, hx, hd⟩ := ho
  exact ⟨x, hx, hd.trans h⟩

/-! ## C109: azimuth, elevation, range -/

theorem basis_values (f : LocalFrame) :
    f.basis.1 = !₂[-Real.sin f.lon, Real.cos f.lon, 0] ∧
    f.basis.2.1 = !₂[-Real.sin f.lat * Real.cos f.lon, -Real.sin f.lat * Real.sin f.lon, Real.cos f.lat] ∧
    f.basis.2.2 = !₂[Real.cos f.lat * Real.cos f.lon, Real.cos f.lat * Real.sin f.lon, Real.sin f.lat] :=
  ⟨rfl, rfl, rfl⟩

/-- **C109**: the local basis: up is the zenith, north its derivative with latitude, east its derivative with
longitude per unit of the parallel's radius, and the three are a right-handed orthonormal basis. -/
theorem local_basis (f : LocalFrame) :
    f.basis.2.2 = Spec.zenith f.lat f.lon ∧
    (∀ i, HasDerivAt (fun φ => Spec.zenith φ f.lon i) (f.basis.2.1 i) f.lat) ∧
    (∀ i, HasDerivAt (fun l => Spec.zenith f.lat l i) (Real.cos f.lat * f.basis.1 i) f.lon) ∧
    ‖f.basis.1‖ = 1 ∧ ‖f.basis.2.1‖ = 1 ∧ ‖f.basis.2.2‖ = 1 ∧
    inner ℝ f.basis.1 f.basis.2.1 = 0 ∧ inner ℝ f.basis.1 f.basis.2.2 = 0 ∧
    inner ℝ f.basis.2.1 f.basis.2.2 = 0 ∧
    cross f.basis.1 f.basis.2.1 = f.basis.2.2 := by
  obtain ⟨h1, h2, h3⟩ := basis_values f
  have p := Real.sin_sq_add_cos_sq f.lat
  have q := Real.sin_sq_add_cos_sq f.lon
  rw [h1, h2, h3]
  set sp := Real.sin f.lat
  set cp := Real.cos f.lat
  set sl := Real.sin f.lon
  set cl := Real.cos f.lon
  refine ⟨rfl, ?_, ?_, ?_, ?_, ?_, ?_, ?_, ?_, ?_⟩
  · intro i
    fin_cases i
    · exact (Real.hasDerivAt_cos f.lat).mul_const (Real.cos f.lon)
    · exact (Real.hasDerivAt_cos f.lat).mul_const (Real.sin f.lon)
    · exact Real.hasDerivAt_sin f.lat
  · intro i
    fin_cases i
    · exact (Real.hasDerivAt_cos f.lon).const_mul (Real.cos f.lat)
    · exact (Real.hasDerivAt_sin f.lon).const_mul (Real.cos f.lat)
    · exact (hasDerivAt_const f.lon (Real.sin f.lat)).congr_deriv (by simp)
  · apply norm_of_sq (by norm_num)
    simp
    linear_combination q
  · apply norm_of_sq (by norm_num)
    simp
    linear_combination sp ^ 2 * q + p
  · apply norm_of_sq (by norm_num)
    simp
    linear_combination cp ^ 2 * q + p
  · rw [inner_vec]
    simp
    ring
  · rw [inner_vec]
    simp
    ring
  · rw [inner_vec]
    simp
    linear_combination -sp * cp * q
  · apply vec_eq
    · simp [cross]; ring
    · simp [cross]; ring
    · simp [cross]; linear_combination sp * q

/-- A vector is the sum of its components along the basis. -/
theorem basis_expand (f : LocalFrame) (v : Vec3) :
    v = inner ℝ v f.basis.1 • f.basis.1 + inner ℝ v f.basis.2.1 • f.basis.2.1
      + inner ℝ v f.basis.2.2 • f.basis.2.2 := by
  obtain ⟨h1, h2, h3⟩ := basis_values f
  have p := Real.sin_sq_add_cos_sq f.lat
  have q := Real.sin_sq_add_cos_sq f.lon
  rw [h1, h2, h3]
  simp only [inner_vec]
  set sp := Real.sin f.lat
  set cp := Real.cos f.lat
  set sl := Real.sin f.lon
  set cl := Real.cos f.lon
  apply vec_eq
  · simp
    linear_combination (-v 0) * q + (-(v 0 * cl ^ 2 + v 1 * sl * cl)) * p
  · simp
    linear_combination (-v 1) * q + (-(v 1 * sl ^ 2 + v 0 * sl * cl)) * p
  · simp
    linear_combination (-v 2) * p

theorem basis_pythagoras (f : LocalFrame) (v : Vec3) :
    inner ℝ v f.basis.1 ^ 2 + inner ℝ v f.basis.2.1 ^ 2 + inner ℝ v f.basis.2.2 ^ 2 = ‖v‖ ^ 2 := by
  obtain ⟨h1, h2, h3⟩ := basis_values f
  have p := Real.sin_sq_add_cos_sq f.lat
  have q := Real.sin_sq_add_cos_sq f.lon
  rw [h1, h2, h3, norm_sq_vec]
  simp only [inner_vec]
  simp
  set sp := Real.sin f.lat
  set cp := Real.cos f.lat
  set sl := Real.sin f.lon
  set cl := Real.cos f.lon
  linear_combination (v 0 ^ 2 + v 1 ^ 2) * q + ((v 0 * cl + v 1 * sl) ^ 2 + v 2 ^ 2) * p

/-- **C109**: azimuth and elevation of a unit vector: they give the vector back, with the azimuth in one turn
and the elevation between nadir and zenith. -/
theorem azel_direction (f : LocalFrame) {v : Vec3} (hv : ‖v‖ = 1) :
    v = Spec.pointing f.basis.1 f.basis.2.1 f.basis.2.2 (azel v f).1 (azel v f).2 ∧
    0 ≤ (azel v f).1 ∧ (azel v f).1 < 2 * Real.pi ∧
    -(Real.pi / 2) ≤ (azel v f).2 ∧ (azel v f).2 ≤ Real.pi / 2 := by
  have hpy := basis_pythagoras f v
  rw [hv] at hpy
  have hex := basis_expand f v
  unfold azel
  simp only
  set e := inner ℝ v f.basis.1 with he
  set n := inner ℝ v f.basis.2.1 with hn
  set u := inner ℝ v f.basis.2.2 with hu
  have hu1 : -1 ≤ u := by nlinarith [sq_nonneg e, sq_nonneg n]
  have hu2 : u ≤ 1 := by nlinarith [sq_nonneg e, sq_nonneg n]
  have hc : Real.cos (Real.arcsin u) = ‖(⟨n, e⟩ : ℂ)‖ := by
    rw [Real.cos_arcsin, Complex.norm_def, Complex.normSq_apply]
    congr 1
    simp only
    linarith
  have htrig : Real.sin (if atan2 e n < 0 then atan2 e n + tau else atan2 e n) = Real.sin (atan2 e n) ∧
      Real.cos (if atan2 e n < 0 then atan2 e n + tau else atan2 e n) = Real.cos (atan2 e n) := by
    split
    · exact ⟨Real.sin_add_two_pi _, Real.cos_add_two_pi _⟩
    · exact ⟨rfl, rfl⟩
  have hcos : ‖(⟨n, e⟩ : ℂ)‖ * Real.cos (atan2 e n) = n := Complex.norm_mul_cos_arg ⟨n, e⟩
  have hsin : ‖(⟨n, e⟩ : ℂ)‖ * Real.sin (atan2 e n) = e := Complex.norm_mul_sin_arg ⟨n, e⟩
  have hl := Complex.neg_pi_lt_arg (⟨n, e⟩ : ℂ)
  have hr := Complex.arg_le_pi (⟨n, e⟩ : ℂ)
  have hpi := Real.pi_pos
  refine ⟨?_, ?_, ?_, Real.neg_pi_div_two_le_arcsin u, Real.arcsin_le_pi_div_two u⟩
  · unfold Spec.pointing
    rw [htrig.1, htrig.2, hc, hcos, hsin, Real.sin_arcsin hu1 hu2]
    exact hex
  · unfold tau atan2
    split <;> linarith
  · unfold tau atan2
    split <;> linarith

/-- Azimuth is counted from north through east: a target due east is at a quarter turn. -/
example : azel !₂[0, 1, 0] ⟨0, 0⟩ = (Real.pi / 2, 0) := by
  have e0 : Real.sin 0 = 0 := Real.sin_zero
  unfold azel
  obtain ⟨h1, h2, h3⟩ := basis_values ⟨0, 0⟩
  rw [h1, h2, h3]
  simp only [inner_vec]
  simp [atan2]
  have : (⟨0, 1⟩ : ℂ) = Complex.I := rfl
  rw [this, Complex.arg_I]
  have h10 : ¬ (1 : ℝ) < 0 := by norm_num
  simp [h10]

/-- **C109**: range, range rate and light time are the distance, its rate of change along the given velocities,
and the time light takes. -/
theorem range_and_rate (op ov tp tv : Vec3) (f : LocalFrame) (h : tp ≠ op) :
    (azimuthElevationRange op ov tp tv f).range = dist tp op ∧
    HasDerivAt (fun t : ℝ => dist (tp + t • tv) (op + t • ov)) (azimuthElevationRange op ov tp tv f).rangeRate 0 ∧
    (azimuthElevationRange op ov tp tv f).lightTime * 299792458 = dist tp op := by
  have hn : tp - op ≠ 0 := sub_ne_zero.mpr h
  have hpos : 0 < ‖tp - op‖ := norm_pos_iff.mpr hn
  refine ⟨(dist_eq_norm tp op).symm, ?_, ?_⟩
  · have e : (fun t : ℝ => dist (tp + t • tv) (op + t • ov)) = fun t : ℝ => ‖(tp - op) + t • (tv - ov)‖ := by
      funext t
      rw [dist_eq_norm]
      congr 1
      module
    rw [e]
    have hd : HasDerivAt (fun t : ℝ => (tp - op) + t • (tv - ov)) (tv - ov) 0 := by
      have := ((hasDerivAt_id (0 : ℝ)).smul_const (tv - ov)).const_add (tp - op)
      refine this.congr_deriv ?_
      rw [one_smul]
    have h2 := hd.norm_sq
    have h3 := h2.sqrt (by simpa using hn)
    have e2 : (fun t : ℝ => ‖(tp - op) + t • (tv - ov)‖)
        = fun t : ℝ => Real.sqrt (‖(tp - op) + t • (tv - ov)‖ ^ 2) := by
      funext t
      rw [Real.sqrt_sq (norm_nonneg _)]
    rw [e2]
    refine h3.congr_deriv ?_
    unfold azimuthElevationRange
    simp only [zero_smul, add_zero]
    rw [Real.sqrt_sq hpos.le, inner_vec]
    simp only [PiLp.smul_apply, smul_eq_mul]
    field_simp
  · unfold azimuthElevationRange
    simp only
    rw [dist_eq_norm]
    norm_num

/-- **C109** (partial): the numbers stored as the pointing are the azimuth and elevation of the line of sight
in radians. -/
theorem pointing_partial (op ov tp tv : Vec3) (f : LocalFrame) (h : tp ≠ op) :
    tp - op = dist tp op • Spec.pointing f.basis.1 f.basis.2.1 f.basis.2.2
      (azimuthElevationRange op ov tp tv f).azDeg (azimuthElevationRange op ov tp tv f).altDeg := by
  have hpos : 0 < ‖tp - op‖ := norm_pos_iff.mpr (sub_ne_zero.mpr h)
  have hu : ‖(1 / ‖tp - op‖) • (tp - op)‖ = 1 := by
    rw [norm_smul, Real.norm_of_nonneg (by positivity)]
    field_simp
  have := (azel_direction f hu).1
  unfold azimuthElevationRange
  simp only
  rw [← this, dist_eq_norm, smul_smul, mul_one_div, div_self hpos.ne', one_smul]

/-- **C109** (finding): the pointing type holds degrees, and is given radians: a target at the zenith gets an
altitude below two degrees. -/
theorem zenith_not_ninety :
    ∃ (op tp : Vec3) (f : LocalFrame), tp - op = f.basis.2.2 ∧
      (azimuthElevationRange op 0 tp 0 f).altDeg < 2 := by
  refine ⟨0, !₂[1, 0, 0], ⟨0, 0⟩, ?_, ?_⟩
  · rw [(basis_values ⟨0, 0⟩).2.2]
    apply vec_eq <;> simp
  · have h : (azimuthElevationRange 0 0 !₂[1, 0, 0] 0 ⟨0, 0⟩).altDeg ≤ Real.pi / 2 := Real.arcsin_le_pi_div_two _
    have := Real.pi_lt_d2
    linarith

/-- **C109** (finding): the status says the line of sight is clear even when it passes through the central body. -/
theorem status_always_clear (op ov tp tv : Vec3) (f : LocalFrame) :
    (azimuthElevationRange op ov tp tv f).status = .clear := rfl

theorem clear_through_body :
    ∃ op tp : Vec3, obstructed op tp 6378 = true ∧
      (azimuthElevationRange op 0 tp 0 ⟨0, 0⟩).status = .clear :=
  ⟨lowSat, lowSun, shadow_missed.2.2.2, rfl⟩

/-! ## C111: orbit-relative quantities -/

theorem cross_orthogonal (a b : Vec3) : inner ℝ (cross a b) a = 0 ∧ inner ℝ (cross a b) b = 0 := by
  constructor <;> rw [inner_vec] <;> simp [cross] <;> ring

theorem cross_smul (s t : ℝ) (a b : Vec3) : cross (s • a) (t • b) = (s * t) • cross a b := by
  apply vec_eq <;> simp [cross] <;> ring

/-- **C111**: the beta angle is the elevation of the Sun above the orbit plane, positive on the side of the
angular momentum; the function panics exactly when position and velocity do not span a plane. -/
theorem beta_elevation (pos vel sun : Vec3) (hp : pos ≠ 0) (hv : vel ≠ 0) (hs : ‖sun‖ = 1) :
    (cross pos vel = 0 → betaAngle pos vel sun = none) ∧
    (cross pos vel ≠ 0 →
      betaAngle pos vel sun = some (Real.pi / 2 - InnerProductGeometry.angle (cross pos vel) sun)) := by
  have h1 : 0 < ‖pos‖ := norm_pos_iff.mpr hp
  have h2 : 0 < ‖vel‖ := norm_pos_iff.mpr hv
  have hk : 0 < 1 / ‖pos‖ * (1 / ‖vel‖) := by positivity
  have e : cross (unit pos) (unit vel) = (1 / ‖pos‖ * (1 / ‖vel‖)) • cross pos vel := cross_smul _ _ _ _
  unfold betaAngle
  simp only
  rw [e]
  constructor
  · intro h
    rw [h, smul_zero, if_pos rfl]
  · intro h
    rw [if_neg (smul_ne_zero hk.ne' h)]
    congr 1
    have hc : 0 < ‖cross pos vel‖ := norm_pos_iff.mpr h
    have hun : unit ((1 / ‖pos‖ * (1 / ‖vel‖)) • cross pos vel) = (1 / ‖cross pos vel‖) • cross pos vel := by
      unfold unit
      rw [norm_smul, Real.norm_of_nonneg hk.le, smul_smul]
      congr 1
      field_simp
    have hin : inner ℝ (unit ((1 / ‖pos‖ * (1 / ‖vel‖)) • cross pos vel)) sun
        = inner ℝ (cross pos vel) sun / (‖cross pos vel‖ * ‖sun‖) := by
      rw [hun, real_inner_smul_left, hs]
      field_simp
    have hb := abs_le.mp (abs_real_inner_div_norm_mul_norm_le_one (cross pos vel) sun)
    rw [hin, clamp_inside hb.1 hb.2]
    unfold InnerProductGeometry.angle
    rw [Real.arccos_eq_pi_div_two_sub_arcsin]
    ring

/-- **C111**: the angular momentum that orients the plane is perpendicular to position and velocity. -/
theorem beta_plane (pos vel : Vec3) :
    inner ℝ (cross pos vel) pos = 0 ∧ inner ℝ (cross pos vel) vel = 0 := cross_orthogonal pos vel

/-- A circular equatorial orbit with the Sun on the pole. -/
example : betaAngle !₂[1, 0, 0] !₂[0, 1, 0] !₂[0, 0, 1] = some (Real.pi / 2) := by
  have n1 : ‖(!₂[0, 0, 1] : Vec3)‖ = 1 := by
    apply norm_of_sq (by norm_num)
    simp
  have hc : cross !₂[1, 0, 0] !₂[0, 1, 0] = !₂[0, 0, 1] := by
    apply vec_eq <;> simp [cross]
  have h := (beta_elevation !₂[1, 0, 0] !₂[0, 1, 0] !₂[0, 0, 1]
    (fun h => by have := congrArg (fun v : Vec3 => v 0) h; simp at this)
    (fun h => by have := congrArg (fun v : Vec3 => v 1) h; simp at this) n1).2
  rw [hc] at h
  have := h (fun h => by have := congrArg (fun v : Vec3 => v 2) h; simp at this)
  rw [this, InnerProductGeometry.angle_self (fun h => by have := congrArg (fun v : Vec3 => v 2) h; simp at this)]
  simp

/-- **C111**: solar time is a time of day, noon at the sub-solar meridian, and advances by one day per turn
of longitude (an hour for 15°), to the east. -/
theorem solar_time (lon sun : ℝ) :
    0 ≤ localSolarTime lon sun ∧ localSolarTime lon sun < 86400 ∧
    ∃ k : ℤ, localSolarTime lon sun = 43200 + (lon - sun) * 86400 / (2 * Real.pi) + k * 86400 := by
  have ht := tau_pos
  have hr := remEuclid_range (12 + remEuclid (lon - sun) tau * 24 / tau) (by norm_num : (0 : ℝ) < 24)
  unfold localSolarTime
  simp only
  refine ⟨by linarith [hr.1], by linarith [hr.2], ?_⟩
  obtain ⟨m, hm⟩ : ∃ m : ℤ, remEuclid (12 + remEuclid (lon - sun) tau * 24 / tau) 24
      = 12 + remEuclid (lon - sun) tau * 24 / tau - m * 24 := ⟨_, rfl⟩
  obtain ⟨j, hj⟩ : ∃ j : ℤ, remEuclid (lon - sun) tau = lon - sun - j * tau := ⟨_, rfl⟩
  refine ⟨-j - m, ?_⟩
  rw [hm, hj, show 2 * Real.pi = tau from rfl]
  push_cast
  field_simp
  ring

/-- **C111**: the local time of the ascending node follows the same rule. -/
theorem ltan_solar_time (raan ra : ℝ) : ltan raan ra = localSolarTime raan ra := rfl

/-! ## C112: fields of view -/

/-- **C112**: a cone accepts exactly the directions within its half angle of the boresight. -/
theorem cone_contains (half off : ℝ) : (Fov.conical half).contains off = true ↔ |off| ≤ half := by
  simp [Fov.contains]

/-- **C112**: a direction accepted by the rectangular test is inside the pyramid: its angles in the two planes
are within half the field. -/
theorem rectangle_sound {x y : ℝ} (hx : x < Real.pi) {v : Vec3} (hv : v ≠ 0)
    (h : (Fov.rectangular x y).contains (InnerProductGeometry.angle v !₂[0, 0, 1]) = true) :
    0 < v 2 ∧ |Real.arctan (v 0 / v 2)| ≤ x / 2 ∧ |Real.arctan (v 1 / v 2)| ≤ y / 2 := by
  set θ := InnerProductGeometry.angle v !₂[0, 0, 1] with hθ
  have h0 : 0 ≤ θ := InnerProductGeometry.angle_nonneg _ _
  have hb : θ ≤ x / 2 ∧ θ ≤ y / 2 := by
    unfold Fov.contains at h
    simp only [decide_eq_true_eq] at h
    rw [abs_of_nonneg h0] at h
    split at h
    · exact ⟨h, by linarith⟩
    · exact ⟨by linarith, h⟩
  have hn : 0 < ‖v‖ := norm_pos_iff.mpr hv
  have n1 : ‖(!₂[0, 0, 1] : Vec3)‖ = 1 := by
    apply norm_of_sq (by norm_num)
    simp
  have hc : Real.cos θ = v 2 / ‖v‖ := by
    rw [hθ, InnerProductGeometry.cos_angle, inner_vec, n1]
    simp
  have hcp : 0 < Real.cos θ := Real.cos_pos_of_mem_Ioo ⟨by linarith [Real.pi_pos], by linarith⟩
  have hz : 0 < v 2 := by
    rw [hc] at hcp
    exact (div_pos_iff_of_pos_right hn).mp hcp
  have hs : 0 ≤ Real.sin θ := Real.sin_nonneg_of_nonneg_of_le_pi h0 (by linarith)
  have htan : 0 ≤ Real.tan θ := by
    rw [Real.tan_eq_sin_div_cos]
    positivity
  have htt : v 0 ^ 2 + v 1 ^ 2 = (Real.tan θ * v 2) ^ 2 := by
    have e1 : v 2 = Real.cos θ * ‖v‖ := by rw [hc]; field_simp
    have e2 : Real.tan θ * v 2 = Real.sin θ * ‖v‖ := by
      rw [Real.tan_eq_sin_div_cos, e1]
      field_simp
    rw [e2]
    have := norm_sq_vec v
    have hq := Real.sin_sq_add_cos_sq θ
    have : v 2 ^ 2 = Real.cos θ ^ 2 * ‖v‖ ^ 2 := by rw [e1]; ring
    nlinarith
  have bound : ∀ w : ℝ, w ^ 2 ≤ (Real.tan θ * v 2) ^ 2 → |Real.arctan (w / v 2)| ≤ θ := by
    intro w hw
    have h1 := abs_le_of_sq_le_sq' hw (mul_nonneg htan hz.le)
    have hat : Real.arctan (Real.tan θ) = θ := Real.arctan_tan (by linarith [Real.pi_pos]) (by linarith)
    rw [abs_le]
    constructor
    · have : Real.arctan (-Real.tan θ) ≤ Real.arctan (w / v 2) :=
        Real.arctan_strictMono.monotone (by rw [le_div_iff₀ hz]; linarith [h1.1])
      rw [Real.arctan_neg, hat] at this
      exact this
    · have : Real.arctan (w / v 2) ≤ Real.arctan (Real.tan θ) :=
        Real.arctan_strictMono.monotone (by rw [div_le_iff₀ hz]; linarith [h1.2])
      rwa [hat] at this
  exact ⟨hz, (bound _ (by nlinarith [sq_nonneg (v 1)])).trans hb.1, (bound _ (by nlinarith [sq_nonneg (v 0)])).trans hb.2⟩

/-! ## C110: findings about the mask -/

/-- **C110** (finding): the samples are sorted before they are reduced to one turn, so a sample given at a
negative azimuth is lost. -/
theorem mask_unsorted :
    ∃ (s : List (ℝ × ℝ)) (p : ℝ × ℝ), p ∈ s ∧ elevationAt (newMask s) p.1 ≠ p.2 ∧
      clears (newMask s) p.1 (p.2 / 2) = true ∧ 0 < p.2 := by
  have hpi := Real.pi_gt_three
  have ht : 6 < tau := by unfold tau; linarith
  refine ⟨[(-1, 1), (1, 0)], (-1, 1), by simp, ?_⟩
  have e1 : remEuclid (-1) tau = tau - 1 := by
    have := remEuclid_shift (y := tau) (-1) 1 tau_pos
    rw [← this]
    rw [remEuclid_id (by push_cast; linarith) (by push_cast; linarith)]
    push_cast
    ring
  have e2 : remEuclid 1 tau = 1 := remEuclid_id (by norm_num) (by linarith)
  have hm : newMask [(-1, 1), (1, 0)] = [(tau - 1, 1), (1, 0)] := by
    unfold newMask
    have : sortAz [(-1, 1), (1, 0)] = [((-1 : ℝ), (1 : ℝ)), (1, 0)] := by
      simp [sortAz, insertAz]
    rw [this]
    simp [e1, e2]
  have hv : elevationAt (newMask [(-1, 1), (1, 0)]) (-1) = (tau - 2) / (2 * tau - 2) := by
    rw [hm]
    unfold elevationAt
    simp only [e1]
    unfold maskLoop
    rw [if_neg (by simp only; rintro ⟨_, h⟩; linarith)]
    unfold maskLoop
    simp only
    rw [if_pos ⟨by linarith, by linarith⟩]
    simp only
    unfold between
    simp only
    rw [if_neg (by intro h; linarith)]
    rw [show tau - 1 - 1 = tau - 2 by ring, show tau - 1 + tau - 1 = 2 * tau - 2 by ring]
    ring
  have hlt : (tau - 2) / (2 * tau - 2) ≤ 1 / 2 := by
    rw [div_le_iff₀ (by linarith)]
    linarith
  refine ⟨?_, ?_, by norm_num⟩
  · simp only
    rw [hv]
    intro h
    linarith
  · unfold clears
    simp only
    rw [hv, decide_eq_true_eq]
    exact hlt

/-- **C110**: clearing the mask means being at or above the profile. -/
theorem clears_profile {s : List (ℝ × ℝ)} (hne : s ≠ []) (hr : ∀ p ∈ s, 0 ≤ p.1 ∧ p.1 < 2 * Real.pi)
    (hd : s.Pairwise fun a b => a.1 ≠ b.1) (az el : ℝ) :
    clears (newMask s) az el = true ↔ ∀ e, Spec.Horizon s az e → e ≤ el := by
  unfold clears
  rw [decide_eq_true_eq]
  constructor
  · intro h e he
    rw [horizon_unique hr hd he (mask_profile hne hr hd az)]
    exact h
  · intro h
    exact h _ (mask_profile hne hr hd az)

/-- **C110**: without samples the mask is the flat horizon. -/
theorem mask_empty (az : ℝ) : elevationAt (newMask []) az = 0 := rfl

/-- Three samples given out of order. -/
example : elevationAt (newMask [(3, 0.2), (1, 0.1), (5, 0.3)]) 1 = 0.1 := by
  have hpi := Real.pi_gt_three
  have := mask_sample (s := [(3, 0.2), (1, 0.1), (5, 0.3)])
    (by
      intro p hp
      simp only [List.mem_cons, List.not_mem_nil, or_false] at hp
      rcases hp with rfl | rfl | rfl <;> constructor <;> norm_num <;> linarith)
    (by simp) (p := (1, 0.1)) (by simp) 0
  simpa using this

end Verif.Mission
