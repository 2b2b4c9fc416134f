import Verif.Pod.Thrust

/-
Range corrections and observation residuals.
-/
namespace Verif.Pod

/-! ### Corrections -/

theorem inner_vec (a b : Vec3) : inner ℝ a b = a 0 * b 0 + a 1 * b 1 + a 2 * b 2 := by
  simp [EuclideanSpace.inner_eq_star_dotProduct, dotProduct, Fin.sum_univ_three]
  ring

/-- The shortening is the component of the shift along the line of sight. -/
theorem along_eq (d : Vec3) (range : ℝ) (rx sat : Vec3) (h : sat ≠ rx) :
    along d range rx sat = range - inner ℝ d (sat - rx) / ‖sat - rx‖ * 1000 := by
  have hp : 0 < ‖sat - rx‖ := norm_pos_iff.mpr (sub_ne_zero.mpr h)
  have e : Real.sqrt ((sat 0 - rx 0) * (sat 0 - rx 0) + (sat 1 - rx 1) * (sat 1 - rx 1)
      + (sat 2 - rx 2) * (sat 2 - rx 2)) = ‖sat - rx‖ := by
    rw [← radius_eq]; rfl
  unfold along
  simp only [e, hp.ne', if_false]
  rw [inner_vec]
  simp only [PiLp.sub_apply]
  field_simp

/-- The distance after a shift differs from the first-order value by at most `|d|² / 2ρ`, and is never below it. -/
theorem shift_distance (v d : Vec3) (hv : v ≠ 0) :
    ‖v‖ - inner ℝ d v / ‖v‖ ≤ ‖v - d‖ ∧ ‖v - d‖ ≤ ‖v‖ - inner ℝ d v / ‖v‖ + ‖d‖ ^ 2 / (2 * ‖v‖) := by
  have hp : 0 < ‖v‖ := norm_pos_iff.mpr hv
  have sq : ‖v - d‖ ^ 2 = ‖v‖ ^ 2 - 2 * inner ℝ d v + ‖d‖ ^ 2 := by
    rw [norm_sub_sq_real, real_inner_comm]
  constructor
  · have h1 : inner ℝ (v - d) v ≤ ‖v - d‖ * ‖v‖ := real_inner_le_norm _ _
    rw [inner_sub_left, real_inner_self_eq_norm_sq] at h1
    have : ‖v‖ - inner ℝ d v / ‖v‖ = (‖v‖ ^ 2 - inner ℝ d v) / ‖v‖ := by field_simp
    rw [this, div_le_iff₀ hp]
    exact h1
  · have h2 : 0 ≤ (‖v - d‖ - ‖v‖) ^ 2 := sq_nonneg _
    have : ‖v‖ - inner ℝ d v / ‖v‖ + ‖d‖ ^ 2 / (2 * ‖v‖) = (2 * ‖v‖ ^ 2 - 2 * inner ℝ d v + ‖d‖ ^ 2) / (2 * ‖v‖) := by
      field_simp
    rw [this, le_div_iff₀ (by positivity)]
    nlinarith

/-- The sum of the shifts of a list of corrections. -/
noncomputable def shiftOf : List Correction → Vec3
  | [] => 0
  | .phaseCentre o :: t => o + shiftOf t
  | .tide d :: t => d + shiftOf t
  | .shapiro :: t => shiftOf t

/-- Without the Shapiro delay a registry corrects for the sum of all shifts. -/
theorem applyAll_shifts (cs : List Correction) (hc : .shapiro ∉ cs) (range : ℝ) (rx sat : Vec3) (h : sat ≠ rx) :
    applyAll cs range rx sat = range - inner ℝ (shiftOf cs) (sat - rx) / ‖sat - rx‖ * 1000 := by
  induction cs generalizing range with
  | nil => simp [applyAll, shiftOf]
  | cons c t ih =>
    have ht : Correction.shapiro ∉ t := fun hm => hc (List.mem_cons_of_mem _ hm)
    have i := ih ht (c.applyTo range rx sat)
    unfold applyAll at i ⊢
    rw [List.foldl_cons, i]
    cases c with
    | shapiro => exact absurd List.mem_cons_self hc
    | phaseCentre o =>
      simp only [Correction.applyTo, shiftOf, along_eq _ _ _ _ h, inner_add_left]
      ring
    | tide o =>
      simp only [Correction.applyTo, shiftOf, along_eq _ _ _ _ h, inner_add_left]
      ring

theorem delay_pos : 0 < 2 * gm / (lightSpeed * lightSpeed) := by
  unfold gm lightSpeed; norm_num

/-- The Shapiro delay lengthens a range. -/
theorem shapiro_lengthens (range : ℝ) (rx sat : Vec3) (h : 0 ≤ range) : range ≤ shapiroRange range rx sat := by
  unfold shapiroRange
  simp only
  split_ifs with hd
  · have : 1 ≤ (radius rx * 1000 + radius sat * 1000 + range) / (radius rx * 1000 + radius sat * 1000 - range) := by
      rw [le_div_iff₀ hd]; linarith
    have := mul_nonneg delay_pos.le (Real.log_nonneg this)
    linarith
  · exact le_rfl

/-- For a range equal to the distance the delay has the documented value, unless the geocentre lies between. -/
theorem shapiro_value (rx sat : Vec3) (h : ‖sat - rx‖ < ‖rx‖ + ‖sat‖) :
    shapiroRange (‖sat - rx‖ * 1000) rx sat = ‖sat - rx‖ * 1000 +
      2 * gm / lightSpeed ^ 2 * Real.log ((‖rx‖ + ‖sat‖ + ‖sat - rx‖) / (‖rx‖ + ‖sat‖ - ‖sat - rx‖)) := by
  unfold shapiroRange
  have e : ∀ p : Vec3, radius p = ‖p‖ := radius_eq
  simp only [e]
  rw [if_pos (by linarith)]
  congr 2
  · rw [pow_two]
  · congr 1
    rw [show ‖rx‖ * 1000 + ‖sat‖ * 1000 + ‖sat - rx‖ * 1000 = (‖rx‖ + ‖sat‖ + ‖sat - rx‖) * 1000 by ring,
      show ‖rx‖ * 1000 + ‖sat‖ * 1000 - ‖sat - rx‖ * 1000 = (‖rx‖ + ‖sat‖ - ‖sat - rx‖) * 1000 by ring,
      mul_div_mul_right _ _ (by norm_num)]

/-! ### GNSS -/

/-- Off the first frequency the delay falls with the square of the frequency. -/
theorem iono_scaling (i : Iono) {f g : ℝ} (hf : 0 < f) (hf' : 1e6 < |f - 1575420000|) (hg : 0 < g)
    (hg' : 1e6 < |g - 1575420000|) : ionoDelay i f * f ^ 2 = ionoDelay i g * g ^ 2 := by
  cases i with
  | free => simp [ionoDelay]
  | none => simp [ionoDelay]
  | klobuchar p =>
    simp only [ionoDelay, hf, hf', hg, hg', true_and, if_true]
    field_simp

/-- The phase in cycles is the phase in metres over the wavelength. -/
theorem phase_cycles (u : Setup) (o : GnssObs) (rx : Vec3) (hf : 0 < o.frequency) :
    (phaseResidual u o rx).1 = (phaseResidual u o rx).2 * (lightSpeed / o.frequency) := by
  have : lightSpeed / o.frequency ≠ 0 := by
    unfold lightSpeed
    exact (div_pos (by norm_num) hf).ne'
  simp only [phaseResidual, wavelength, hf, if_true]
  rw [div_mul_cancel₀ _ this]

theorem saastamoinen_pos (e : ℝ) : 0 < saastamoinen e := by
  unfold saastamoinen
  have : (0 : ℝ) < max (Real.sin e) 0.07 := lt_max_of_lt_right (by norm_num)
  positivity

/-- Higher in the sky the tropospheric delay is not larger. -/
theorem saastamoinen_anti {e e' : ℝ} (h0 : -(Real.pi / 2) ≤ e) (h : e ≤ e') (h1 : e' ≤ Real.pi / 2) :
    saastamoinen e' ≤ saastamoinen e := by
  have hs : Real.sin e ≤ Real.sin e' :=
    Real.strictMonoOn_sin.monotoneOn ⟨h0, h.trans h1⟩ ⟨h0.trans h, h1⟩ h
  have hm : max (Real.sin e) 0.07 ≤ max (Real.sin e') 0.07 := max_le_max hs le_rfl
  have hp : (0 : ℝ) < max (Real.sin e) 0.07 := lt_max_of_lt_right (by norm_num)
  unfold saastamoinen
  simp only
  gcongr

/-- The ionospheric delay is at least the night-time value times the obliquity, which is positive up to the zenith. -/
theorem klobuchar_floor (p : Klobuchar) (he : p.elevation ≤ 0.5) :
    (1 + 16 * (0.53 - p.elevation) ^ 3) * 5e-9 * lightSpeed ≤ klobuchar p ∧ 0 < klobuchar p := by
  have ho : 0 < 1 + 16 * (0.53 - p.elevation) ^ 3 := by
    have : (0 : ℝ) < 0.53 - p.elevation := by norm_num at he ⊢; linarith
    positivity
  have hl : 0 < lightSpeed := by unfold lightSpeed; norm_num
  have key : ∀ x amp : ℝ, 0 ≤ amp → (5e-9 : ℝ) ≤ if |x| < Real.pi / 2 then 5e-9 + amp * Real.cos x else 5e-9 := by
    intro x amp ha
    split_ifs with hx
    · have := (Real.cos_pos_of_mem_Ioo ⟨(abs_lt.mp hx).1, (abs_lt.mp hx).2⟩).le
      have := mul_nonneg ha this
      linarith
    · exact le_rfl
  have lo : (1 + 16 * (0.53 - p.elevation) ^ 3) * 5e-9 * lightSpeed ≤ klobuchar p := by
    unfold klobuchar
    simp only
    gcongr
    exact key _ _ (le_max_right _ _)
  exact ⟨lo, lt_of_lt_of_le (by positivity) lo⟩

/-! ### Laser ranging -/

theorem fLambda_pos {l : ℝ} (h : 0 < l) : 0 < fLambda l := by
  unfold fLambda; positivity

/-- The tropospheric delay of a laser is positive. -/
theorem mariniMurray_pos {e l : ℝ} (hl : 0 < l) (he : e < Real.pi / 2) : 0 < mariniMurray e l := by
  have hpi := Real.pi_pos
  have h1 : 0 < max e (3 * Real.pi / 180) := lt_max_of_lt_right (by positivity)
  have h2 : max e (3 * Real.pi / 180) < Real.pi / 2 := max_lt he (by linarith)
  have hs : 0 < Real.sin (max e (3 * Real.pi / 180)) := Real.sin_pos_of_pos_of_lt_pi h1 (by linarith)
  have ht : 0 < Real.tan (max e (3 * Real.pi / 180)) := Real.tan_pos_of_pos_of_lt_pi_div_two h1 h2
  have := fLambda_pos hl
  unfold mariniMurray
  simp only
  positivity

theorem shapiroSlr_nonneg {a b r : ℝ} (h : 0 ≤ r) : 0 ≤ shapiroSlr a b r := by
  unfold shapiroSlr
  simp only
  split_ifs with hd
  · apply mul_nonneg (mul_nonneg (by norm_num) delay_pos.le)
    apply Real.log_nonneg
    rw [le_div_iff₀ (by linarith)]
    linarith
  · exact le_rfl

/-- Two dates on the grid of the 64-bit numbers near the present are matched only if they are equal. -/
theorem epochs_match_grid {m n : ℤ} : EpochsMatch (m / 2 ^ 31) (n / 2 ^ 31) ↔ m = n := by
  unfold EpochsMatch
  constructor
  · intro h
    by_contra hne
    have h1 : (1 : ℝ) ≤ |(m : ℝ) - n| := by
      have : 1 ≤ |m - n| := Int.one_le_abs (sub_ne_zero.mpr hne)
      exact_mod_cast this
    rw [← sub_div, abs_div, abs_of_pos (by norm_num : (0 : ℝ) < 2 ^ 31), div_lt_iff₀ (by norm_num)] at h
    norm_num at h
    linarith
  · rintro rfl
    simp
    norm_num

end Verif.Pod
