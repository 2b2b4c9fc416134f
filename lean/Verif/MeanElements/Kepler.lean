import Mathlib.Analysis.SpecialFunctions.Trigonometric.Bounds
import Mathlib.Analysis.SpecialFunctions.Trigonometric.Deriv
import Mathlib.Analysis.Calculus.Deriv.MeanValue
import Mathlib.Analysis.Real.Pi.Bounds
import Mathlib.Analysis.Convex.SpecificFunctions.Deriv
import Verif.MeanElements.Model

/-!
# The solver of Kepler's equation
-/

namespace Verif.MeanElements

open Real

/-- `E` solves Kepler's equation. -/
def Root (M e E : ℝ) : Prop := E - e * sin E = M

/-! ## Sines and cosines on `[0, π]` -/

theorem sin_above_tangent {a b : ℝ} (ha : 0 ≤ a) (hab : a ≤ b) (hb : b ≤ π) : (b - a) * cos b ≤ sin b - sin a := by
  rcases hab.eq_or_lt with rfl | hlt
  · simp
  obtain ⟨c, hc, he⟩ := exists_hasDerivAt_eq_slope sin cos hlt continuous_sin.continuousOn (fun x _ => hasDerivAt_sin x)
  have h1 : cos b ≤ cos c := cos_le_cos_of_nonneg_of_le_pi (by linarith [hc.1]) hb hc.2.le
  have h2 : sin b - sin a = cos c * (b - a) := by rw [he]; field_simp [sub_ne_zero.mpr hlt.ne']
  rw [h2]
  nlinarith [sub_pos.mpr hlt]

theorem sin_below_tangent {a b : ℝ} (ha : 0 ≤ a) (hab : a ≤ b) (hb : b ≤ π) : sin b - sin a ≤ (b - a) * cos a := by
  rcases hab.eq_or_lt with rfl | hlt
  · simp
  obtain ⟨c, hc, he⟩ := exists_hasDerivAt_eq_slope sin cos hlt continuous_sin.continuousOn (fun x _ => hasDerivAt_sin x)
  have h1 : cos c ≤ cos a := cos_le_cos_of_nonneg_of_le_pi ha (by linarith [hc.2]) hc.1.le
  have h2 : sin b - sin a = cos c * (b - a) := by rw [he]; field_simp [sub_ne_zero.mpr hlt.ne']
  rw [h2]
  nlinarith [sub_pos.mpr hlt]

theorem sin_lipschitz {a b : ℝ} (hab : a ≤ b) : |sin b - sin a| ≤ b - a := by
  rcases hab.eq_or_lt with rfl | hlt
  · simp
  obtain ⟨c, hc, he⟩ := exists_hasDerivAt_eq_slope sin cos hlt continuous_sin.continuousOn (fun x _ => hasDerivAt_sin x)
  have h2 : sin b - sin a = cos c * (b - a) := by rw [he]; field_simp [sub_ne_zero.mpr hlt.ne']
  rw [h2, abs_mul, abs_of_pos (sub_pos.mpr hlt)]
  nlinarith [abs_cos_le_one c, sub_pos.mpr hlt]

theorem cos_lipschitz {a b : ℝ} (hab : a ≤ b) : |cos a - cos b| ≤ b - a := by
  rcases hab.eq_or_lt with rfl | hlt
  · simp
  obtain ⟨c, hc, he⟩ := exists_hasDerivAt_eq_slope cos (fun x => -sin x) hlt continuous_cos.continuousOn
    (fun x _ => hasDerivAt_cos x)
  have h2 : cos a - cos b = sin c * (b - a) := by
    have : cos b - cos a = -sin c * (b - a) := by rw [he]; field_simp [sub_ne_zero.mpr hlt.ne']
    linarith
  rw [h2, abs_mul, abs_of_pos (sub_pos.mpr hlt)]
  nlinarith [abs_sin_le_one c, sub_pos.mpr hlt]

theorem remainder_nonneg (x : ℝ) {h : ℝ} (hh : 0 ≤ h) : |sin (x + h) - sin x - h * cos x| ≤ h ^ 2 / 2 := by
  have hd : ∀ t, HasDerivAt (fun t => sin (x + t) - sin x - t * cos x) (cos (x + t) - cos x) t := by
    intro t
    have h1 : HasDerivAt (fun t => sin (x + t)) (cos (x + t) * 1) t :=
      (hasDerivAt_sin (x + t)).comp t ((hasDerivAt_id t).const_add x)
    have h2 := (h1.sub_const (sin x)).sub ((hasDerivAt_id t).mul_const (cos x))
    refine h2.congr_deriv ?_
    ring
  have hs : ∀ t, HasDerivAt (fun t : ℝ => t ^ 2 / 2) t t := by
    intro t
    have := ((hasDerivAt_id t).pow 2).div_const 2
    refine this.congr_deriv ?_
    simp
  have hb : ∀ t, 0 ≤ t → |cos (x + t) - cos x| ≤ t := by
    intro t ht
    have := cos_lipschitz (a := x) (b := x + t) (by linarith)
    rw [abs_sub_comm]
    linarith
  have key : ∀ g g' : ℝ → ℝ, (∀ t, HasDerivAt g (g' t) t) → (∀ t, 0 ≤ t → 0 ≤ g' t) → g 0 = 0 → 0 ≤ g h := by
    intro g g' hg hg' h0
    have hm : MonotoneOn g (Set.Ici 0) := by
      apply monotoneOn_of_deriv_nonneg (convex_Ici 0) (fun t _ => (hg t).continuousAt.continuousWithinAt)
        (fun t _ => (hg t).differentiableAt.differentiableWithinAt)
      intro t ht
      rw [interior_Ici] at ht
      rw [(hg t).deriv]
      exact hg' t (le_of_lt ht)
    have := hm (Set.mem_Ici.mpr le_rfl) (Set.mem_Ici.mpr hh) hh
    rwa [h0] at this
  rw [abs_le]
  constructor
  · have := key (fun t => t ^ 2 / 2 + (sin (x + t) - sin x - t * cos x)) (fun t => t + (cos (x + t) - cos x))
      (fun t => (hs t).add (hd t)) (fun t ht => by have := abs_le.mp (hb t ht); linarith [this.1]) (by simp)
    linarith
  · have := key (fun t => t ^ 2 / 2 - (sin (x + t) - sin x - t * cos x)) (fun t => t - (cos (x + t) - cos x))
      (fun t => (hs t).sub (hd t)) (fun t ht => by have := abs_le.mp (hb t ht); linarith [this.2]) (by simp)
    linarith

/-- The second order remainder. -/
theorem sin_remainder (x h : ℝ) : |sin (x + h) - sin x - h * cos x| ≤ h ^ 2 / 2 := by
  rcases le_total 0 h with hh | hh
  · exact remainder_nonneg x hh
  · have := remainder_nonneg (-x) (h := -h) (by linarith)
    rw [show -x + -h = -(x + h) by ring, sin_neg, sin_neg, cos_neg] at this
    rw [show sin (x + h) - sin x - h * cos x = -(-sin (x + h) - -sin x - -h * cos x) by ring, abs_neg]
    simpa using this

/-- The bound of Cusa and Huygens. -/
theorem cusa {E : ℝ} (h0 : 0 ≤ E) (hE : E ≤ π) : 3 * sin E ≤ E * (2 + cos E) := by
  have hd : ∀ t, HasDerivAt (fun t => t * (2 + cos t) - 3 * sin t) (2 - 2 * cos t - t * sin t) t := by
    intro t
    have := ((hasDerivAt_id t).mul ((hasDerivAt_cos t).const_add 2)).sub ((hasDerivAt_sin t).const_mul 3)
    refine this.congr_deriv ?_
    simp only [id]
    ring
  have hpos : ∀ t, 0 ≤ t → t ≤ π → 0 ≤ 2 - 2 * cos t - t * sin t := by
    intro t ht htp
    have h1 := sin_above_tangent (a := 0) (b := t / 2) le_rfl (by linarith) (by linarith)
    rw [sin_zero] at h1
    have h2 : 0 ≤ sin (t / 2) := sin_nonneg_of_nonneg_of_le_pi (by linarith) (by linarith)
    have h3 : cos t = 1 - 2 * sin (t / 2) ^ 2 := by
      have := cos_sq' (t / 2)
      have h4 := cos_two_mul (t / 2)
      rw [show 2 * (t / 2) = t by ring] at h4
      linarith
    have h5 : sin t = 2 * sin (t / 2) * cos (t / 2) := by
      have := sin_two_mul (t / 2)
      rwa [show 2 * (t / 2) = t by ring] at this
    rw [h3, h5]
    have : 0 ≤ 4 * (sin (t / 2) * (sin (t / 2) - 0 - (t / 2 - 0) * cos (t / 2))) := by
      have := mul_nonneg h2 (sub_nonneg.mpr h1)
      linarith
    linarith
  have hm : MonotoneOn (fun t => t * (2 + cos t) - 3 * sin t) (Set.Icc 0 π) := by
    apply monotoneOn_of_deriv_nonneg (convex_Icc 0 π) (fun t _ => (hd t).continuousAt.continuousWithinAt)
      (fun t _ => (hd t).differentiableAt.differentiableWithinAt)
    intro t ht
    rw [interior_Icc] at ht
    rw [(hd t).deriv]
    exact hpos t ht.1.le ht.2.le
  have := hm ⟨le_rfl, pi_pos.le⟩ ⟨h0, hE⟩ h0
  simp at this
  linarith

/-- Its form between two points. -/
theorem cusa_between {r E : ℝ} (hr : 0 ≤ r) (hrE : r ≤ E) (hE : E ≤ π) : 3 * (sin E - sin r) ≤ (E - r) * (2 + cos E) := by
  rcases (hr.trans hrE).eq_or_lt with h0 | h0
  · have : r = 0 := by linarith
    subst this
    rw [← h0]
    simp
  have hcusa := cusa h0.le hE
  have h0m : (0 : ℝ) ∈ Set.Icc 0 π := ⟨le_rfl, pi_pos.le⟩
  have hEm : E ∈ Set.Icc 0 π := ⟨h0.le, hE⟩
  have ha : 0 ≤ 1 - r / E := by rw [sub_nonneg, div_le_one h0]; exact hrE
  have hconc := strictConcaveOn_sin_Icc.concaveOn.2 h0m hEm ha (div_nonneg hr h0.le) (by ring)
  simp only [smul_eq_mul, sin_zero, mul_zero, zero_add] at hconc
  rw [div_mul_cancel₀ r h0.ne'] at hconc
  have h1 : 0 ≤ 1 - r / E := by rw [sub_nonneg, div_le_one h0]; exact hrE
  have h2 : E - r = (1 - r / E) * E := by field_simp
  rw [h2]
  nlinarith [mul_le_mul_of_nonneg_left hcusa h1]

/-! ## One step -/

section step

variable {M e r E : ℝ}

/-- From above the root, a step stays above it and comes closer. -/
theorem step_bounds (he : 0 ≤ e) (he1 : e < 1) (hr0 : 0 ≤ r) (hrE : r ≤ E) (hE : E ≤ π) (hr : Root M e r) :
    0 < 1 - e * cos E ∧ 0 ≤ (E - e * sin E - M) / (1 - e * cos E)
      ∧ r ≤ E - (E - e * sin E - M) / (1 - e * cos E)
      ∧ E - (E - e * sin E - M) / (1 - e * cos E) - r ≤ 2 / 3 * (E - r)
      ∧ ∀ δ, 0 < δ → δ ≤ 1 - e →
        E - (E - e * sin E - M) / (1 - e * cos E) - r ≤ (E - r) ^ 2 / (δ + (E - r)) := by
  unfold Root at hr
  have hf : E - e * sin E - M = (E - r) - e * (sin E - sin r) := by rw [← hr]; ring
  have hx : 0 ≤ E - r := sub_nonneg.mpr hrE
  have hp : 0 < 1 - e * cos E := by nlinarith [cos_le_one E]
  have h1 := sin_above_tangent hr0 hrE hE
  have h2 := sin_below_tangent hr0 hrE hE
  have h3 := cusa_between hr0 hrE hE
  have h4 := abs_le.mp (sin_lipschitz hrE)
  have h5 := abs_le.mp (cos_lipschitz hrE)
  rw [hf]
  generalize sin E - sin r = S at *
  refine ⟨hp, div_nonneg (by nlinarith) hp.le, ?_, ?_, ?_⟩
  · have : ((E - r) - e * S) / (1 - e * cos E) ≤ E - r := by
      rw [div_le_iff₀ hp]; nlinarith
    linarith
  · have : (E - r) / 3 ≤ ((E - r) - e * S) / (1 - e * cos E) := by
      rw [le_div_iff₀ hp]; nlinarith
    linarith
  · intro δ hδ hδe
    have hden : 0 < δ + (E - r) := by linarith
    have hg : 1 - e ≤ 1 - e * cos r := by nlinarith [cos_le_one r]
    -- the value is at least `x g`, the slope at most `g + e x`
    have hv : (E - r) * (1 - e * cos r) ≤ (E - r) - e * S := by nlinarith
    have hs : 1 - e * cos E ≤ (1 - e * cos r) + e * (E - r) := by nlinarith [h5.2]
    generalize hgg : 1 - e * cos r = g at *
    have hg0 : 0 < g := by linarith
    have hge : 0 < g + e * (E - r) := by nlinarith
    have hq : (E - r) * g / (g + e * (E - r)) ≤ ((E - r) - e * S) / (1 - e * cos E) := by
      rw [div_le_div_iff₀ hge hp]
      have a1 : (E - r) * g * (1 - e * cos E) ≤ (E - r) * g * (g + e * (E - r)) :=
        mul_le_mul_of_nonneg_left hs (mul_nonneg hx hg0.le)
      have a2 : (E - r) * g * (g + e * (E - r)) ≤ ((E - r) - e * S) * (g + e * (E - r)) :=
        mul_le_mul_of_nonneg_right hv hge.le
      linarith
    have hfin : (E - r) - (E - r) * g / (g + e * (E - r)) ≤ (E - r) ^ 2 / (δ + (E - r)) := by
      have e1 : (E - r) - (E - r) * g / (g + e * (E - r)) = e * (E - r) ^ 2 / (g + e * (E - r)) := by
        field_simp
        ring
      rw [e1, div_le_div_iff₀ hge hden]
      have : e * (δ + (E - r)) ≤ g + e * (E - r) := by nlinarith
      nlinarith [mul_le_mul_of_nonneg_left this (sq_nonneg (E - r))]
    linarith

end step

/-! ## Convergence -/

/-- `k` steps are enough from within `b` above the root. -/
def Good (M e r : ℝ) (k : Nat) (b : ℝ) : Prop := ∀ E, r ≤ E → E ≤ π → E - r ≤ b → ∃ y, newton M e k E = some y

section conv

variable {M e r : ℝ} (he : 0 ≤ e) (hr0 : 0 ≤ r) (hr : Root M e r)

theorem good_mono {k : Nat} {b b' : ℝ} (h : b ≤ b') (hg : Good M e r k b') : Good M e r k b :=
  fun E h1 h2 h3 => hg E h1 h2 (h3.trans h)

include he hr0 hr

theorem good_last (k : Nat) {b : ℝ} (he9 : e ≤ 0.9999) (hb : b < 1e-13) : Good M e r (k + 1) b := by
  intro E h1 h2 h3
  obtain ⟨hp, s0, s1, -, -⟩ := step_bounds he (lt_of_le_of_lt he9 (by norm_num)) hr0 h1 h2 hr
  have hfp : ¬ |1 - e * cos E| < 1.0e-14 := by
    rw [abs_of_pos hp, not_lt]
    have := cos_le_one E
    norm_num at he9 ⊢
    nlinarith
  rw [newton]
  simp only [if_neg hfp]
  rw [if_pos]
  · exact ⟨_, rfl⟩
  · rw [abs_of_nonneg s0]
    have : (1.0e-13 : ℝ) = 1e-13 := by norm_num
    rw [this]
    linarith

theorem good_step {k : Nat} {b b' : ℝ} (he9 : e ≤ 0.9999)
    (h : ∀ E, r ≤ E → E ≤ π → E - r ≤ b → E - (E - e * sin E - M) / (1 - e * cos E) - r ≤ b') (hg : Good M e r k b') :
    Good M e r (k + 1) b := by
  intro E h1 h2 h3
  obtain ⟨hp, s0, s1, -, -⟩ := step_bounds he (lt_of_le_of_lt he9 (by norm_num)) hr0 h1 h2 hr
  have hfp : ¬ |1 - e * cos E| < 1.0e-14 := by
    rw [abs_of_pos hp, not_lt]
    have := cos_le_one E
    norm_num at he9 ⊢
    nlinarith
  rw [newton]
  simp only [if_neg hfp]
  split
  · exact ⟨_, rfl⟩
  · exact hg _ s1 (by linarith) (h E h1 h2 h3)

theorem good_linear {k : Nat} {b : ℝ} (he9 : e ≤ 0.9999) (hg : Good M e r k (2 / 3 * b)) : Good M e r (k + 1) b := by
  refine good_step he hr0 hr he9 (fun E h1 h2 h3 => ?_) hg
  obtain ⟨-, -, -, s, -⟩ := step_bounds he (lt_of_le_of_lt he9 (by norm_num)) hr0 h1 h2 hr
  linarith

theorem good_linears {k : Nat} {b : ℝ} (he9 : e ≤ 0.9999) (j : Nat) (hg : Good M e r k ((2 / 3) ^ j * b)) :
    Good M e r (k + j) b := by
  induction j generalizing b with
  | zero => simpa using hg
  | succ j ih =>
    apply good_linear he hr0 hr he9
    apply ih
    convert hg using 1
    rw [pow_succ]
    ring

theorem good_quad {k : Nat} {b δ b' : ℝ} (he9 : e ≤ 0.9999) (hδ : 0 < δ) (hδe : δ ≤ 1 - e) (hb : 0 ≤ b)
    (hb' : b ^ 2 ≤ b' * (δ + b)) (hg : Good M e r k b') : Good M e r (k + 1) b := by
  refine good_step he hr0 hr he9 (fun E h1 h2 h3 => ?_) hg
  obtain ⟨-, -, -, -, s⟩ := step_bounds he (lt_of_le_of_lt he9 (by norm_num)) hr0 h1 h2 hr
  refine (s δ hδ hδe).trans ?_
  have hx : 0 ≤ E - r := sub_nonneg.mpr h1
  rw [div_le_iff₀ (by linarith)]
  have hbp : 0 < δ + b := by linarith
  have : (E - r) ^ 2 * (δ + b) ≤ b ^ 2 * (δ + (E - r)) := by
    have a1 : (E - r) ^ 2 * δ ≤ b ^ 2 * δ := by
      apply mul_le_mul_of_nonneg_right _ hδ.le
      nlinarith
    have a2 : (E - r) ^ 2 * b ≤ b ^ 2 * (E - r) := by nlinarith [mul_nonneg hx hb]
    linarith
  have h4 : b ^ 2 * (δ + (E - r)) ≤ b' * (δ + b) * (δ + (E - r)) := mul_le_mul_of_nonneg_right hb' (by linarith)
  have h5 : (E - r) ^ 2 * (δ + b) ≤ b' * (δ + (E - r)) * (δ + b) := by linarith
  exact le_of_mul_le_mul_right h5 hbp

end conv

/-! ## The whole loop -/

/-- The least number of steps needed from the far end. -/
theorem good_far {M e r : ℝ} (he : 0 ≤ e) (he9 : e ≤ 0.9999) (hr0 : 0 ≤ r) (hr : Root M e r) : Good M e r 32 π := by
  have hδ : (1e-4 : ℝ) ≤ 1 - e := by norm_num at he9 ⊢; linarith
  have h0 : (0:ℝ) < 1e-4 := by norm_num
  have g8 : Good M e r 1 7.9e-15 := good_last he hr0 hr 0 he9 (by norm_num)
  have g7 : Good M e r 2 8.87e-10 := good_quad he hr0 hr he9 h0 hδ (by norm_num) (by norm_num) g8
  have g6 : Good M e r 3 2.9815e-7 := good_quad he hr0 hr he9 h0 hδ (by norm_num) (by norm_num) g7
  have g5 : Good M e r 4 5.6114e-6 := good_quad he hr0 hr he9 h0 hδ (by norm_num) (by norm_num) g6
  have g4 : Good M e r 5 2.66594e-5 := good_quad he hr0 hr he9 h0 hδ (by norm_num) (by norm_num) g5
  have g3 : Good M e r 6 6.66552e-5 := good_quad he hr0 hr he9 h0 hδ (by norm_num) (by norm_num) g4
  have g2 : Good M e r 7 1.215105e-4 := good_quad he hr0 hr he9 h0 hδ (by norm_num) (by norm_num) g3
  have g1 : Good M e r 8 1.866211e-4 := good_quad he hr0 hr he9 h0 hδ (by norm_num) (by norm_num) g2
  refine good_linears (k := 8) he hr0 hr he9 24 (good_mono ?_ g1)
  have : π < 3.141593 := pi_lt_d6
  have h1 : ((2:ℝ) / 3) ^ 24 * π ≤ (2 / 3) ^ 24 * 3.141593 := by
    apply mul_le_mul_of_nonneg_left this.le (by norm_num)
  refine h1.trans ?_
  norm_num

theorem good_moderate {M e r : ℝ} (he : 0 ≤ e) (he8 : e < 0.8) (hr0 : 0 ≤ r) (hr : Root M e r) : Good M e r 31 π := by
  have he9 : e ≤ 0.9999 := by norm_num at he8 ⊢; linarith
  have hδ : (0.2 : ℝ) ≤ 1 - e := by norm_num at he8 ⊢; linarith
  have h0 : (0:ℝ) < 0.2 := by norm_num
  have g5 : Good M e r 12 3.1e-18 := good_last he hr0 hr 11 he9 (by norm_num)
  have g4 : Good M e r 13 7.8e-10 := good_quad he hr0 hr he9 h0 hδ (by norm_num) (by norm_num) g5
  have g3 : Good M e r 14 1.248e-5 := good_quad he hr0 hr he9 h0 hδ (by norm_num) (by norm_num) g4
  have g2 : Good M e r 15 1.585e-3 := good_quad he hr0 hr he9 h0 hδ (by norm_num) (by norm_num) g3
  have g1 : Good M e r 16 1.8613e-2 := good_quad he hr0 hr he9 h0 hδ (by norm_num) (by norm_num) g2
  refine good_linears (k := 16) he hr0 hr he9 15 (good_mono ?_ g1)
  have : π < 3.141593 := pi_lt_d6
  have h1 : ((2:ℝ) / 3) ^ 15 * π ≤ (2 / 3) ^ 15 * 3.141593 := by
    apply mul_le_mul_of_nonneg_left this.le (by norm_num)
  refine h1.trans ?_
  norm_num

/-- There is a root between the mean anomaly and half a turn. -/
theorem root_exists {M e : ℝ} (he : 0 ≤ e) (h0 : 0 ≤ M) (hM : M ≤ π) : ∃ r, M ≤ r ∧ r ≤ π ∧ Root M e r := by
  have hc : ContinuousOn (fun E => E - e * sin E) (Set.Icc M π) :=
    (continuous_id.sub (continuous_const.mul continuous_sin)).continuousOn
  have := intermediate_value_Icc hM hc
  have hm : M ∈ Set.Icc (M - e * sin M) (π - e * sin π) := by
    refine ⟨?_, ?_⟩
    · have := sin_nonneg_of_nonneg_of_le_pi h0 hM
      nlinarith
    · rw [sin_pi]; linarith
  obtain ⟨r, hr, he⟩ := this hm
  exact ⟨r, hr.1, hr.2, he⟩

/-- From below the root the first step jumps above it. -/
theorem first_step {M e r : ℝ} (he : 0 ≤ e) (he8 : e < 0.8) (h0 : 0 ≤ M) (hMr : M ≤ r) (hrp : r ≤ π) (hr : Root M e r) :
    0 < 1 - e * cos M ∧ r ≤ M - (M - e * sin M - M) / (1 - e * cos M) ∧ M - (M - e * sin M - M) / (1 - e * cos M) ≤ π := by
  have hp : 0 < 1 - e * cos M := by norm_num at he8; nlinarith [cos_le_one M]
  have hs0 : 0 ≤ sin M := sin_nonneg_of_nonneg_of_le_pi h0 (hMr.trans hrp)
  have e1 : M - (M - e * sin M - M) / (1 - e * cos M) = M + e * sin M / (1 - e * cos M) := by ring
  rw [e1]
  refine ⟨hp, ?_, ?_⟩
  · have h2 := sin_below_tangent h0 hMr hrp
    unfold Root at hr
    have : r - M ≤ e * sin M / (1 - e * cos M) := by
      rw [le_div_iff₀ hp]
      nlinarith
    linarith
  · have : e * sin M / (1 - e * cos M) ≤ π - M := by
      rw [div_le_iff₀ hp]
      rcases le_total (cos M) 0 with hc | hc
      · have h1 : sin M ≤ π - M := by
          rw [← sin_pi_sub]; exact sin_le (by linarith)
        have h2 : 0 ≤ π - M := by linarith
        have he1 : e ≤ 1 := by norm_num at he8; linarith
        have h3 : 0 ≤ -(e * cos M) := by nlinarith
        nlinarith [mul_nonneg h2 h3]
      · have hM2 : M ≤ π / 2 := by
          by_contra hcon
          rw [not_le] at hcon
          have : cos M < 0 := cos_neg_of_pi_div_two_lt_of_lt hcon (by linarith)
          linarith
        have hpi : 3.14 < π := pi_gt_d2
        have hk : 1.57 ≤ π - M := by norm_num at hpi ⊢; linarith
        have hcs := sin_sq_add_cos_sq M
        have hb : 0.8 * (sin M + 1.57 * cos M) ≤ 1.57 := by
          have h1 : (sin M + 1.57 * cos M) ^ 2 ≤ 1 + 1.57 ^ 2 := by nlinarith [sq_nonneg (1.57 * sin M - cos M)]
          have h2 : sin M + 1.57 * cos M ≤ 1.87 := by
            apply le_of_sq_le_sq _ (by norm_num)
            refine h1.trans (by norm_num)
          norm_num at h2 ⊢
          linarith
        have hpos : 0 ≤ sin M + 1.57 * cos M := by positivity
        have h3 : e * (sin M + 1.57 * cos M) ≤ 1.57 := by
          refine le_trans ?_ hb
          exact mul_le_mul_of_nonneg_right he8.le hpos
        nlinarith [mul_le_mul_of_nonneg_right hk hp.le]
    linarith

theorem solve_half {M e : ℝ} (he : 0 ≤ e) (he9 : e ≤ 0.9999) (h0 : 0 ≤ M) (hM : M ≤ π) : ∃ E, solve M e = some E := by
  obtain ⟨r, h1, h2, hr⟩ := root_exists he h0 hM
  have hr0 : 0 ≤ r := h0.trans h1
  unfold solve
  split
  · rename_i he8
    obtain ⟨hp, s1, s2⟩ := first_step he he8 h0 h1 h2 hr
    rw [newton]
    have hfp : ¬ |1 - e * cos M| < 1.0e-14 := by
      rw [abs_of_pos hp, not_lt]
      have := cos_le_one M
      norm_num at he9 ⊢
      nlinarith
    simp only [if_neg hfp]
    split
    · exact ⟨_, rfl⟩
    · exact good_moderate he he8 hr0 hr _ s1 s2 (by linarith)
  · exact good_far he he9 hr0 hr π h2 le_rfl (by linarith)

/-- Turning everything round. -/
theorem newton_mirror (M e : ℝ) (k : Nat) (E : ℝ) :
    newton (2 * π - M) e k (2 * π - E) = (newton M e k E).map (2 * π - ·) := by
  induction k generalizing E with
  | zero => rfl
  | succ k ih =>
    rw [newton, newton]
    have hs : sin (2 * π - E) = -sin E := by rw [sin_two_pi_sub]
    have hc : cos (2 * π - E) = cos E := by rw [cos_two_pi_sub]
    simp only [hs, hc]
    have hf : (2 * π - E - e * -sin E - (2 * π - M)) / (1 - e * cos E) = -((E - e * sin E - M) / (1 - e * cos E)) := by ring
    rw [hf, abs_neg]
    split
    · rfl
    · split
      · simp; ring
      · rw [show 2 * π - E - -((E - e * sin E - M) / (1 - e * cos E)) = 2 * π - (E - (E - e * sin E - M) / (1 - e * cos E)) by ring]
        exact ih _

/-- The solver finds an answer for every mean anomaly and every eccentricity up to 0.9999. -/
theorem solve_converges {M e : ℝ} (he : 0 ≤ e) (he9 : e ≤ 0.9999) (h0 : 0 ≤ M) (hM : M < 2 * π) : ∃ E, solve M e = some E := by
  rcases le_total M π with h | h
  · exact solve_half he he9 h0 h
  · obtain ⟨E, hE⟩ := solve_half he he9 (M := 2 * π - M) (by linarith) (by linarith)
    refine ⟨2 * π - E, ?_⟩
    unfold solve at hE ⊢
    have hst : (if e < 0.8 then M else π) = 2 * π - (if e < 0.8 then 2 * π - M else π) := by split <;> ring
    have := newton_mirror (2 * π - M) e 32 (if e < 0.8 then 2 * π - M else π)
    rw [hE, show 2 * π - (2 * π - M) = M by ring, ← hst] at this
    exact this

/-- An answer solves the equation to within `10⁻²⁶`, and is that close, up to the factor `1 - e`, to the solution. -/
theorem solve_sound {M e E : ℝ} (he : 0 ≤ e) (he1 : e < 1) (h : solve M e = some E) :
    |E - e * sin E - M| ≤ 1e-26 ∧ ∀ r, Root M e r → (1 - e) * |E - r| ≤ 1e-26 := by
  have key : ∀ k E0, newton M e k E0 = some E → |E - e * sin E - M| ≤ 1e-26 := by
    intro k
    induction k with
    | zero => intro E0 h; cases h
    | succ k ih =>
      intro E0 h
      rw [newton] at h
      have hp : 0 < 1 - e * cos E0 := by nlinarith [cos_le_one E0, neg_one_le_cos E0]
      simp only at h
      split at h
      · cases h
      · split at h
        · rename_i hst
          injection h with h
          generalize hs : (E0 - e * sin E0 - M) / (1 - e * cos E0) = st at h hst
          have hst' : E0 - e * sin E0 - M = st * (1 - e * cos E0) := by rw [← hs]; field_simp
          have hr := sin_remainder E0 (-st)
          rw [← h]
          have e2 : E0 - st - e * sin (E0 - st) - M = -e * (sin (E0 + -st) - sin E0 - -st * cos E0) := by
            rw [show E0 - st = E0 + -st by ring]
            linear_combination hst'
          rw [e2, abs_mul, abs_neg, abs_of_nonneg he]
          have h3 : (-st) ^ 2 / 2 ≤ 1e-26 := by
            have : st ^ 2 ≤ (1.0e-13) ^ 2 := sq_le_sq' (by linarith [(abs_lt.mp hst).1]) (abs_lt.mp hst).2.le
            norm_num at this ⊢
            linarith
          have h4 : 0 ≤ |sin (E0 + -st) - sin E0 - -st * cos E0| := abs_nonneg _
          nlinarith
        · exact ih _ h
  have h1 := key _ _ h
  refine ⟨h1, fun r hr => ?_⟩
  refine le_trans ?_ h1
  have : E - e * sin E - M = (E - r) - e * (sin E - sin r) := by unfold Root at hr; rw [← hr]; ring
  rw [this]
  have hl : |sin E - sin r| ≤ |E - r| := by
    rcases le_total r E with h | h
    · rw [abs_of_nonneg (sub_nonneg.mpr h)]; exact sin_lipschitz h
    · rw [abs_sub_comm (sin E), abs_sub_comm E, abs_of_nonneg (sub_nonneg.mpr h)]; exact sin_lipschitz h
  have h2 : |e * (sin E - sin r)| ≤ e * |E - r| := by
    rw [abs_mul, abs_of_nonneg he]; exact mul_le_mul_of_nonneg_left hl he
  have h3 := abs_sub_abs_le_abs_sub (E - r) (e * (sin E - sin r))
  linarith

/-- The equation has exactly one solution. -/
theorem root_unique {M e a b : ℝ} (he : 0 ≤ e) (he1 : e < 1) (ha : Root M e a) (hb : Root M e b) : a = b := by
  unfold Root at ha hb
  rcases le_total a b with h | h
  · have := abs_le.mp (sin_lipschitz h)
    nlinarith
  · have := abs_le.mp (sin_lipschitz h)
    nlinarith

end Verif.MeanElements
