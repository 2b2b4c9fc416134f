import Verif.Apparent.Model
import Verif.Apparent.Spec
import Mathlib.Analysis.SpecialFunctions.Trigonometric.Arctan
import Mathlib.Analysis.Real.Pi.Bounds
import Mathlib.Geometry.Euclidean.Angle.Unoriented.Basic

/-!
# Apparent directions
-/

namespace Verif.Apparent

/-! ## C113: aberration -/

theorem dot_bound {u β : Vec3} (hu : ‖u‖ = 1) (hβ : ‖β‖ < 1) : 0 < 1 + inner ℝ β u := by
  have := abs_real_inner_le_norm β u
  rw [hu, mul_one] at this
  have := (abs_le.mp this).1
  linarith

theorem lorentz_root {β : Vec3} (hβ : ‖β‖ < 1) :
    0 < Real.sqrt (1 - ‖β‖ ^ 2) ∧ Real.sqrt (1 - ‖β‖ ^ 2) ^ 2 = 1 - ‖β‖ ^ 2 := by
  have h : 0 < 1 - ‖β‖ ^ 2 := by nlinarith [norm_nonneg β]
  exact ⟨Real.sqrt_pos.mpr h, Real.sq_sqrt h.le⟩

/-- The formula with the root instead of the Lorentz factor. -/
theorem aberrate_eq {u β : Vec3} (hβ : ‖β‖ < 1) :
    aberrate u β = (1 / (1 + inner ℝ β u)) •
      (Real.sqrt (1 - ‖β‖ ^ 2) • u + (1 + inner ℝ β u / (1 + Real.sqrt (1 - ‖β‖ ^ 2))) • β) := by
  obtain ⟨hk, hk2⟩ := lorentz_root hβ
  unfold aberrate
  simp only
  split
  · rename_i h
    have hb : β = 0 := by
      rw [← norm_eq_zero]
      exact pow_eq_zero_iff two_ne_zero |>.mp h
    rw [hb]
    simp
  · set k := Real.sqrt (1 - ‖β‖ ^ 2)
    congr 2
    · rw [one_div_one_div]
    · congr 2
      have : 1 / k / (1 / k + 1) = 1 / (1 + k) := by
        field_simp
      rw [this]
      ring

/-- **C113**: the apparent direction is where an observer moving with the given velocity sees the light. -/
theorem aberration_lorentz {u β : Vec3} (hu : ‖u‖ = 1) (h0 : β ≠ 0) (hβ : ‖β‖ < 1) :
    Spec.SeenBy β u (aberrate u β) := by
  obtain ⟨hk, hk2⟩ := lorentz_root hβ
  have hd := dot_bound hu hβ
  have hn : 0 < ‖β‖ := norm_pos_iff.mpr h0
  refine ⟨(1 + inner ℝ β u) / Real.sqrt (1 - ‖β‖ ^ 2), by positivity, ?_, ?_⟩
  · unfold Spec.boostTime
    rw [inner_neg_right]
    ring
  · rw [aberrate_eq hβ]
    unfold Spec.boostSpace
    simp only
    rw [inner_neg_right]
    set k := Real.sqrt (1 - ‖β‖ ^ 2) with hkdef
    set b := inner ℝ β u with hb
    have hkk : 1 - k ^ 2 = ‖β‖ ^ 2 := by linarith
    have hk1 : k < 1 := by nlinarith
    have h1k : 1 - k ≠ 0 := by linarith
    obtain ⟨X, hX⟩ : ∃ X, X = b / ((1 - k) * (1 + k)) := ⟨_, rfl⟩
    have e : (-b / ‖β‖ ^ 2) = -X := by rw [hX, ← hkk, ← neg_div]; congr 1; ring
    rw [e]
    have lhs : -u - (-X) • β + (1 / k) • ((-X) • β - (1 : ℝ) • β)
        = (-1 : ℝ) • u + (X - 1 / k * X - 1 / k) • β := by
      module
    have rhs : -(((1 + b) / k) • (1 / (1 + b)) • (k • u + (1 + b / (1 + k)) • β))
        = (-((1 + b) / k * (1 / (1 + b)) * k)) • u + (-((1 + b) / k * (1 / (1 + b)) * (1 + b / (1 + k)))) • β := by
      module
    rw [lhs, rhs]
    congr 2
    · field_simp
    · rw [hX]
      field_simp
      ring

/-- **C113**: the apparent direction is a unit vector. -/
theorem aberration_unit {u β : Vec3} (hu : ‖u‖ = 1) (hβ : ‖β‖ < 1) : ‖aberrate u β‖ = 1 := by
  obtain ⟨hk, hk2⟩ := lorentz_root hβ
  have hd := dot_bound hu hβ
  rw [aberrate_eq hβ]
  set k := Real.sqrt (1 - ‖β‖ ^ 2)
  set b := inner ℝ β u with hb
  have hsq : ‖k • u + (1 + b / (1 + k)) • β‖ ^ 2 = (1 + b) ^ 2 := by
    rw [norm_add_sq_real, norm_smul, norm_smul, inner_smul_left, inner_smul_right, real_inner_comm, ← hb, hu]
    simp only [Real.norm_eq_abs, mul_pow, sq_abs, conj_trivial]
    rw [show ‖β‖ ^ 2 = (1 - k) * (1 + k) by linarith]
    field_simp
    ring
  have hn := (pow_left_inj₀ (norm_nonneg _) hd.le two_ne_zero).mp hsq
  rw [norm_smul, hn, Real.norm_of_nonneg (by positivity)]
  field_simp

/-- **C113**: the cosine of the angle to the apex of motion, `β cos θ' = (β cos θ + β²)/(1 + β cos θ)`. -/
theorem aberration_cosine {u β : Vec3} (hu : ‖u‖ = 1) (hβ : ‖β‖ < 1) :
    inner ℝ β (aberrate u β) = (inner ℝ β u + ‖β‖ ^ 2) / (1 + inner ℝ β u) := by
  obtain ⟨hk, hk2⟩ := lorentz_root hβ
  have hd := dot_bound hu hβ
  rw [aberrate_eq hβ, inner_smul_right, inner_add_right, inner_smul_right, inner_smul_right,
    real_inner_self_eq_norm_sq]
  set k := Real.sqrt (1 - ‖β‖ ^ 2)
  set b := inner ℝ β u
  rw [show ‖β‖ ^ 2 = (1 - k) * (1 + k) by linarith]
  field_simp
  ring

/-- **C113**: removing the aberration of the same velocity gives the direction back. -/
theorem aberration_undone {u β : Vec3} (hu : ‖u‖ = 1) (hβ : ‖β‖ < 1) : aberrate (aberrate u β) (-β) = u := by
  obtain ⟨hk, hk2⟩ := lorentz_root hβ
  have hd := dot_bound hu hβ
  have hneg : ‖-β‖ < 1 := by rw [norm_neg]; exact hβ
  rw [aberrate_eq hneg, norm_neg, inner_neg_left, aberration_cosine hu hβ, aberrate_eq hβ]
  set k := Real.sqrt (1 - ‖β‖ ^ 2)
  set b := inner ℝ β u
  have hb2 : ‖β‖ ^ 2 = (1 - k) * (1 + k) := by linarith
  rw [hb2]
  have hden : 1 + -((b + (1 - k) * (1 + k)) / (1 + b)) = k ^ 2 / (1 + b) := by
    field_simp
    ring
  rw [hden]
  have e : (1 / (k ^ 2 / (1 + b))) • (k • (1 / (1 + b)) • (k • u + (1 + b / (1 + k)) • β)
        + (1 + -((b + (1 - k) * (1 + k)) / (1 + b)) / (1 + k)) • -β)
      = (1 / (k ^ 2 / (1 + b)) * (k * (1 / (1 + b)) * k)) • u
        + (1 / (k ^ 2 / (1 + b)) * (k * (1 / (1 + b)) * (1 + b / (1 + k))
          - (1 + -((b + (1 - k) * (1 + k)) / (1 + b)) / (1 + k)))) • β := by
    module
  rw [e]
  have c1 : 1 / (k ^ 2 / (1 + b)) * (k * (1 / (1 + b)) * k) = 1 := by field_simp
  have c2 : 1 / (k ^ 2 / (1 + b)) * (k * (1 / (1 + b)) * (1 + b / (1 + k))
          - (1 + -((b + (1 - k) * (1 + k)) / (1 + b)) / (1 + k))) = 0 := by
    field_simp
    ring
  rw [c1, c2, one_smul, zero_smul, add_zero]

/-- **C113**: the star is displaced towards the apex. -/
theorem aberration_towards {u β : Vec3} (hu : ‖u‖ = 1) (hβ : ‖β‖ < 1) :
    InnerProductGeometry.angle β (aberrate u β) ≤ InnerProductGeometry.angle β u := by
  have hd := dot_bound hu hβ
  unfold InnerProductGeometry.angle
  apply Real.arccos_le_arccos
  rw [aberration_unit hu hβ, hu, mul_one]
  apply div_le_div_of_nonneg_right _ (norm_nonneg β)
  rw [aberration_cosine hu hβ, le_div_iff₀ hd]
  have := abs_real_inner_le_norm β u
  rw [hu, mul_one] at this
  nlinarith [sq_abs (inner ℝ β u), abs_nonneg (inner ℝ β u), norm_nonneg β]

/-- **C113**: velocities in any unit: applying and removing with the same velocity below the speed of light are
inverse to each other, and the results are directions. -/
theorem velocity_roundtrip {c : ℝ} (hc : 0 < c) {u v : Vec3} (hu : ‖u‖ = 1) (hv : ‖v‖ < c) :
    removeWithVelocity c (applyWithVelocity c u v) v = u ∧
    applyWithVelocity c (removeWithVelocity c u v) v = u ∧
    ‖applyWithVelocity c u v‖ = 1 ∧ ‖removeWithVelocity c u v‖ = 1 := by
  have hb : ‖(1 / c) • v‖ < 1 := by
    rw [norm_smul, Real.norm_of_nonneg (by positivity), one_div, inv_mul_lt_iff₀ hc]
    linarith
  have hb' : ‖-((1 / c) • v)‖ < 1 := by rw [norm_neg]; exact hb
  refine ⟨aberration_undone hu hb, ?_, aberration_unit hu hb, aberration_unit hu hb'⟩
  have := aberration_undone hu hb'
  rw [neg_neg] at this
  exact this

/-- **C113**: positions keep their distance, and applying then removing (or the reverse) gives the position back. -/
theorem position_roundtrip {c : ℝ} (hc : 0 < c) {earth : ℝ → Vec3} {jd : ℝ} (hv : ‖earth jd‖ < c) (p : Vec3) :
    ‖applyAberration c earth p jd‖ = ‖p‖ ∧ ‖removeAberration c earth p jd‖ = ‖p‖ ∧
    removeAberration c earth (applyAberration c earth p jd) jd = p ∧
    applyAberration c earth (removeAberration c earth p jd) jd = p := by
  by_cases h : ‖p‖ = 0
  · unfold applyAberration removeAberration
    simp [h]
  · have hp : 0 < ‖p‖ := lt_of_le_of_ne (norm_nonneg p) (Ne.symm h)
    have hu : ‖(1 / ‖p‖) • p‖ = 1 := by
      rw [norm_smul, Real.norm_of_nonneg (by positivity)]
      field_simp
    obtain ⟨h1, h2, h3, h4⟩ := velocity_roundtrip hc hu hv
    have n1 : ‖applyAberration c earth p jd‖ = ‖p‖ := by
      unfold applyAberration applyDirection
      rw [if_neg h, norm_smul, h3, mul_one, Real.norm_of_nonneg hp.le]
    have n2 : ‖removeAberration c earth p jd‖ = ‖p‖ := by
      unfold removeAberration removeDirection
      rw [if_neg h, norm_smul, h4, mul_one, Real.norm_of_nonneg hp.le]
    refine ⟨n1, n2, ?_, ?_⟩
    · unfold removeAberration removeDirection
      rw [n1, if_neg h]
      have e : (1 / ‖p‖) • applyAberration c earth p jd = applyWithVelocity c ((1 / ‖p‖) • p) (earth jd) := by
        unfold applyAberration applyDirection
        rw [if_neg h, smul_smul, one_div, inv_mul_cancel₀ h, one_smul]
      rw [e, h1, smul_smul, mul_one_div, div_self h, one_smul]
    · unfold applyAberration applyDirection
      rw [n2, if_neg h]
      have e : (1 / ‖p‖) • removeAberration c earth p jd = removeWithVelocity c ((1 / ‖p‖) • p) (earth jd) := by
        unfold removeAberration removeDirection
        rw [if_neg h, smul_smul, one_div, inv_mul_cancel₀ h, one_smul]
      rw [e, h2, smul_smul, mul_one_div, div_self h, one_smul]

/-- A star at right angles to a motion at 3/5 of the speed of light is seen at cosine 3/5 from the apex. -/
example : inner ℝ (!₂[3 / 5, 0, 0] : Vec3) (aberrate !₂[0, 1, 0] !₂[3 / 5, 0, 0]) = 9 / 25 := by
  have n1 : ‖(!₂[0, 1, 0] : Vec3)‖ = 1 := by
    rw [EuclideanSpace.norm_eq]
    simp [Fin.sum_univ_three]
  have n2 : ‖(!₂[3 / 5, 0, 0] : Vec3)‖ = 3 / 5 := by
    rw [EuclideanSpace.norm_eq]
    simp [Fin.sum_univ_three]
    rw [Real.sqrt_sq (by norm_num)]
  have hi : inner ℝ (!₂[3 / 5, 0, 0] : Vec3) !₂[0, 1, 0] = (0 : ℝ) := by
    simp [PiLp.inner_apply, Fin.sum_univ_three]
  rw [aberration_cosine n1 (by rw [n2]; norm_num), hi, n2]
  norm_num

/-! ## C114: light deflection -/

/-- A star at angle `θ` from the direction `p` of the body. -/
structure Placed (p t : Vec3) : Prop where
  body : ‖p‖ = 1
  side : ‖t‖ = 1
  square : inner ℝ p t = (0 : ℝ)

theorem towards_inner {p t : Vec3} (h : Placed p t) (θ φ : ℝ) :
    inner ℝ (Spec.towards p t θ) (Spec.towards p t φ) = Real.cos (θ - φ) := by
  have h1 : inner ℝ p p = (1 : ℝ) := by rw [real_inner_self_eq_norm_sq, h.body]; norm_num
  have h2 : inner ℝ t t = (1 : ℝ) := by rw [real_inner_self_eq_norm_sq, h.side]; norm_num
  have h3 : inner ℝ t p = (0 : ℝ) := by rw [real_inner_comm]; exact h.square
  unfold Spec.towards
  rw [inner_add_left, inner_add_right, inner_add_right]
  simp only [inner_smul_left, inner_smul_right, h1, h2, h3, h.square, conj_trivial]
  rw [Real.cos_sub]
  ring

theorem towards_unit {p t : Vec3} (h : Placed p t) (θ : ℝ) : ‖Spec.towards p t θ‖ = 1 := by
  have := towards_inner h θ θ
  rw [sub_self, Real.cos_zero, real_inner_self_eq_norm_sq] at this
  exact (pow_left_inj₀ (norm_nonneg _) zero_le_one two_ne_zero).mp (by rw [this]; norm_num)

/-- A step of `T` along the circle and back to unit length is a turn by the arc tangent. -/
theorem step_turns {p t : Vec3} (h : Placed p t) (θ T : ℝ) :
    normalize (Spec.towards p t θ + T • Spec.towards p t (θ + Real.pi / 2))
      = Spec.towards p t (θ + Real.arctan T) := by
  have hn : ‖Spec.towards p t θ + T • Spec.towards p t (θ + Real.pi / 2)‖ = Real.sqrt (1 + T ^ 2) := by
    have : ‖Spec.towards p t θ + T • Spec.towards p t (θ + Real.pi / 2)‖ ^ 2 = 1 + T ^ 2 := by
      rw [norm_add_sq_real, norm_smul, inner_smul_right, towards_inner h, towards_unit h, towards_unit h,
        show θ - (θ + Real.pi / 2) = -(Real.pi / 2) by ring, Real.cos_neg, Real.cos_pi_div_two, mul_pow,
        Real.norm_eq_abs, sq_abs]
      ring
    rw [← this, Real.sqrt_sq (norm_nonneg _)]
  unfold normalize
  rw [hn]
  have hs : 0 < Real.sqrt (1 + T ^ 2) := Real.sqrt_pos.mpr (by positivity)
  unfold Spec.towards
  rw [Real.cos_add_pi_div_two, Real.sin_add_pi_div_two, Real.cos_add, Real.sin_add, Real.cos_arctan, Real.sin_arctan]
  generalize Real.sqrt (1 + T ^ 2) = w at *
  module

theorem half_angle {θ : ℝ} (h : 1 - Real.cos θ ≠ 0) :
    Real.sin θ / (1 - Real.cos θ) = Real.cos (θ / 2) / Real.sin (θ / 2) := by
  have e1 : 1 - Real.cos θ = 2 * Real.sin (θ / 2) ^ 2 := by
    have h1 := Real.cos_two_mul (θ / 2)
    rw [mul_div_cancel₀ θ two_ne_zero] at h1
    have h2 := Real.sin_sq_add_cos_sq (θ / 2)
    linarith
  have e2 : Real.sin θ = 2 * Real.sin (θ / 2) * Real.cos (θ / 2) := by
    rw [← Real.sin_two_mul]
    congr 1
    ring
  have hs : Real.sin (θ / 2) ≠ 0 := by
    intro h0
    apply h
    rw [e1, h0]
    norm_num
  rw [e1, e2]
  field_simp

/-- **C114**: a body of Schwarzschild radius `rs` at distance `d` moves a star at angle `θ` from it to the angle
`θ + arctan ((rs/d) cot (θ/2))` on the great circle away from the body. -/
theorem deflection_angle {p t : Vec3} (h : Placed p t) {d rs θ : ℝ} (hd : 1e-10 ≤ d) (hrs : 0 < rs)
    (hθ : 1e-15 ≤ 1 - Real.cos θ) :
    bodyDeflection (Spec.towards p t θ) (-(d • p)) rs
      = Spec.towards p t (θ + Real.arctan (rs / d * (Real.cos (θ / 2) / Real.sin (θ / 2)))) := by
  have hd0 : 0 < d := lt_of_lt_of_le (by norm_num) hd
  have hq : ‖-(d • p)‖ = d := by rw [norm_neg, norm_smul, h.body, mul_one, Real.norm_of_nonneg hd0.le]
  have hhat : (1 / d) • (-(d • p)) = -p := by
    rw [smul_neg, smul_smul, one_div, inv_mul_cancel₀ hd0.ne', one_smul]
  have hz : Spec.towards p t 0 = p := by unfold Spec.towards; simp
  have hsq : inner ℝ (Spec.towards p t θ) (-p) = -Real.cos θ := by
    rw [inner_neg_right]
    congr 1
    have := towards_inner h θ 0
    rwa [hz, sub_zero] at this
  have hθ0 : 0 < 1 - Real.cos θ := lt_of_lt_of_le (by norm_num) hθ
  unfold bodyDeflection
  simp only
  rw [hq, if_neg (by rintro (h | h) <;> linarith), hhat, hsq,
    if_neg (by rw [abs_of_pos (by linarith)]; linarith), ← step_turns h, ← half_angle hθ0.ne']
  congr 2
  have hdir : -p - (-Real.cos θ) • Spec.towards p t θ = Real.sin θ • Spec.towards p t (θ + Real.pi / 2) := by
    unfold Spec.towards
    rw [Real.cos_add_pi_div_two, Real.sin_add_pi_div_two]
    have := Real.sin_sq_add_cos_sq θ
    have e : -p - (-Real.cos θ) • (Real.cos θ • p + Real.sin θ • t)
        = (Real.cos θ ^ 2 - 1) • p + (Real.sin θ * Real.cos θ) • t := by module
    rw [e, show Real.cos θ ^ 2 - 1 = -(Real.sin θ ^ 2) by linarith]
    module
  rw [hdir, smul_smul]
  congr 1
  have h2 : 1 + -Real.cos θ ≠ 0 := by linarith
  rw [show (1 - Real.cos θ) = 1 + -Real.cos θ by ring]
  field_simp

/-- **C114**: without a body the direction is returned as it is. -/
theorem deflection_none (s q : Vec3) {rs : ℝ} (h : ‖q‖ < 1e-10 ∨ rs ≤ 0) : bodyDeflection s q rs = s := by
  unfold bodyDeflection
  simp only
  rw [if_pos h]

/-- **C114**: a star in the very direction of the body (closer than about 0.01 arcseconds) is not moved. -/
theorem deflection_behind {p t : Vec3} (h : Placed p t) {d θ : ℝ} (hd : 0 < d) (rs : ℝ)
    (hθ : 1 - Real.cos θ < 1e-15) :
    bodyDeflection (Spec.towards p t θ) (-(d • p)) rs = Spec.towards p t θ := by
  have hq : ‖-(d • p)‖ = d := by rw [norm_neg, norm_smul, h.body, mul_one, Real.norm_of_nonneg hd.le]
  have hhat : (1 / d) • (-(d • p)) = -p := by
    rw [smul_neg, smul_smul, one_div, inv_mul_cancel₀ hd.ne', one_smul]
  have hz : Spec.towards p t 0 = p := by unfold Spec.towards; simp
  have hsq : inner ℝ (Spec.towards p t θ) (-p) = -Real.cos θ := by
    rw [inner_neg_right]
    congr 1
    have := towards_inner h θ 0
    rwa [hz, sub_zero] at this
  unfold bodyDeflection
  simp only
  rw [hq, hhat, hsq]
  split
  · rfl
  · rw [if_pos]
    rw [abs_of_nonneg (by linarith [Real.cos_le_one θ])]
    linarith

/-- **C114**: the Schwarzschild radius of the Sun is `2GM/c²` in astronomical units, for the nominal mass
parameter. -/
theorem solar_constant :
    |solarRadius - 2 * 1.3271244e20 / 299792458 ^ 2 / 149597870700| ≤ 1e-9 * solarRadius := by
  unfold solarRadius
  rw [abs_le]
  constructor <;> norm_num

/-- **C114**: the magnitude is the first-order angle `(2GM/c²R) cot (θ/2)` in arcseconds; the deflected star is
farther from the Sun by an angle whose tangent this is. -/
theorem magnitude_first_order {θ d : ℝ} (h0 : 0 < θ) (hd : 0 < d) (hs : 1e-10 ≤ Real.sin (θ / 2)) :
    deflectionMagnitude θ d
      = solarRadius / d * (Real.cos (θ / 2) / Real.sin (θ / 2)) * (180 * 3600 / Real.pi) := by
  unfold deflectionMagnitude
  rw [if_neg (by rintro (h | h) <;> linarith)]
  simp only
  rw [show θ * 0.5 = θ / 2 by ring, abs_of_nonneg (le_trans (by norm_num) hs), max_eq_left hs]
  ring

/-- **C114**: 4.07 mas at right angles to the Sun, at one astronomical unit, as documented. -/
theorem right_angle_magnitude : |deflectionMagnitude (Real.pi / 2) 1 - 0.00407| ≤ 0.000005 := by
  have hpi := Real.pi_pos
  have hs : (0 : ℝ) < Real.sqrt 2 / 2 := by positivity
  have h1 : (1 : ℝ) ≤ Real.sqrt 2 := by
    rw [Real.le_sqrt' one_pos]
    norm_num
  have e : Real.pi / 2 / 2 = Real.pi / 4 := by ring
  rw [magnitude_first_order (by linarith) one_pos (by
    rw [e, Real.sin_pi_div_four]
    have : (1e-10 : ℝ) ≤ 1 / 2 := by norm_num
    linarith), e, Real.cos_pi_div_four, Real.sin_pi_div_four, div_self hs.ne']
  unfold solarRadius
  have l := Real.pi_gt_d4
  have u := Real.pi_lt_d4
  rw [abs_le, neg_le_sub_iff_le_add, sub_le_iff_le_add]
  rw [div_one, mul_one, mul_div_assoc']
  constructor
  · rw [← sub_le_iff_le_add, le_div_iff₀ hpi]
    nlinarith
  · rw [div_le_iff₀ hpi]
    nlinarith

theorem normalize_smul {k : ℝ} (hk : 0 < k) (v : Vec3) : normalize (k • v) = normalize v := by
  unfold normalize
  rw [norm_smul, Real.norm_of_nonneg hk.le, smul_smul]
  by_cases h : ‖v‖ = 0
  · rw [norm_eq_zero] at h
    rw [h]
    simp
  · congr 1
    field_simp

/-- The direction which the inverse returns. -/
theorem inverse_angle {p t : Vec3} (h : Placed p t) {d φ : ℝ} (hd : 1e-10 ≤ d) (hφ : 1e-15 ≤ 1 - Real.cos φ) :
    solarInverse (Spec.towards p t φ) (-(d • p))
      = Spec.towards p t (φ - Real.arctan
          (Real.sin (Real.arctan (solarRadius / d * (Real.cos (φ / 2) / Real.sin (φ / 2))))
            / (2 - Real.cos (Real.arctan (solarRadius / d * (Real.cos (φ / 2) / Real.sin (φ / 2))))))) := by
  unfold solarInverse solarDeflection
  simp only
  rw [deflection_angle h hd (by unfold solarRadius; norm_num) hφ]
  generalize Real.arctan (solarRadius / d * (Real.cos (φ / 2) / Real.sin (φ / 2))) = δ
  have hk : 0 < 2 - Real.cos δ := by linarith [Real.cos_le_one δ]
  obtain ⟨r, hr⟩ : ∃ r, r = Real.sin δ / (2 - Real.cos δ) := ⟨_, rfl⟩
  have hrs : Real.sin δ = r * (2 - Real.cos δ) := by rw [hr]; field_simp
  rw [← hr]
  have e : (2 : ℝ) • Spec.towards p t φ - Spec.towards p t (φ + δ)
      = (2 - Real.cos δ) • (Spec.towards p t φ
        + (-r) • Spec.towards p t (φ + Real.pi / 2)) := by
    unfold Spec.towards
    rw [Real.cos_add_pi_div_two, Real.sin_add_pi_div_two, Real.cos_add, Real.sin_add, hrs]
    module
  rw [e, normalize_smul hk, step_turns h, Real.arctan_neg]
  rfl

/-- The arc tangent grows no faster than its argument. -/
theorem arctan_slow {x y : ℝ} (h : x ≤ y) : Real.arctan y - Real.arctan x ≤ y - x := by
  have hm : Monotone fun x : ℝ => x - Real.arctan x := by
    apply monotone_of_deriv_nonneg
    · exact differentiable_id.sub Real.differentiable_arctan
    · intro x
      have hd := (hasDerivAt_id x).sub (Real.hasDerivAt_arctan x)
      have : deriv (fun x : ℝ => x - Real.arctan x) x = 1 - 1 / (1 + x ^ 2) := hd.deriv
      rw [this]
      have : 1 / (1 + x ^ 2) ≤ 1 := by rw [div_le_one (by positivity)]; nlinarith [sq_nonneg x]
      linarith
  have := hm h
  simp only at this
  linarith

/-- **C114**: deflecting a star and removing the deflection brings it back to the great circle through the Sun,
never exactly to its place, but within a third-order and a second-order term of the deflection `T`. -/
theorem inverse_error {p t : Vec3} (h : Placed p t) {d θ T φ : ℝ} (hd : 1e-10 ≤ d) (h0 : 0 < θ)
    (hT : T = solarRadius / d * (Real.cos (θ / 2) / Real.sin (θ / 2))) (hφ : φ = θ + Real.arctan T)
    (hπ : φ ≤ Real.pi) (hθπ : θ ≤ Real.pi) (hθ : 1e-15 ≤ 1 - Real.cos θ) :
    ∃ ε, solarInverse (solarDeflection (Spec.towards p t θ) (-(d • p))) (-(d • p)) = Spec.towards p t (θ + ε) ∧
      0 ≤ ε ∧ (θ < Real.pi → 0 < ε) ∧
      ε ≤ T ^ 3 + solarRadius / d * T / (2 * Real.sin (θ / 2) * Real.sin (φ / 2)) := by
  have hrs : 0 < solarRadius := by unfold solarRadius; norm_num
  have hd0 : 0 < d := lt_of_lt_of_le (by norm_num) hd
  set κ := solarRadius / d with hκ
  have hκ0 : 0 < κ := by positivity
  have hpi := Real.pi_pos
  have hsθ : 0 < Real.sin (θ / 2) := Real.sin_pos_of_pos_of_lt_pi (by linarith) (by linarith)
  have hcθ : 0 ≤ Real.cos (θ / 2) := Real.cos_nonneg_of_neg_pi_div_two_le_of_le (by linarith) (by linarith)
  have hT0 : 0 ≤ T := by rw [hT]; positivity
  have hat : 0 ≤ Real.arctan T := Real.arctan_nonneg.mpr hT0
  have hθφ : θ ≤ φ := by rw [hφ]; linarith
  have hsφ : 0 < Real.sin (φ / 2) := Real.sin_pos_of_pos_of_lt_pi (by linarith) (by linarith)
  have hcφ : 0 ≤ Real.cos (φ / 2) := Real.cos_nonneg_of_neg_pi_div_two_le_of_le (by linarith) (by linarith)
  have hcosφ : Real.cos φ ≤ Real.cos θ := Real.cos_le_cos_of_nonneg_of_le_pi h0.le hπ hθφ
  have hdef : solarDeflection (Spec.towards p t θ) (-(d • p)) = Spec.towards p t φ := by
    unfold solarDeflection
    rw [deflection_angle h hd hrs hθ, ← hκ, ← hT, hφ]
  rw [hdef, inverse_angle h hd (by linarith)]
  set S := κ * (Real.cos (φ / 2) / Real.sin (φ / 2)) with hS
  have hS0 : 0 ≤ S := by rw [hS]; positivity
  -- the difference of the tangents
  have hdiff : T - S = κ * (Real.sin ((φ - θ) / 2) / (Real.sin (θ / 2) * Real.sin (φ / 2))) := by
    rw [hT, hS, show (φ - θ) / 2 = φ / 2 - θ / 2 by ring, Real.sin_sub]
    field_simp
  have hhalf : Real.sin ((φ - θ) / 2) ≤ T / 2 := by
    have h1 : φ - θ = Real.arctan T := by rw [hφ]; ring
    have h2 : Real.arctan T ≤ T := by
      have := arctan_slow hT0
      rw [Real.arctan_zero] at this
      linarith
    have h3 := Real.sin_le (show 0 ≤ (φ - θ) / 2 by linarith)
    linarith
  have hST : S ≤ T := by
    have : 0 ≤ Real.sin ((φ - θ) / 2) := Real.sin_nonneg_of_nonneg_of_le_pi (by linarith) (by linarith)
    have : 0 ≤ T - S := by rw [hdiff]; positivity
    linarith
  have hroot : 0 < Real.sqrt (1 + S ^ 2) := Real.sqrt_pos.mpr (by positivity)
  have hroot2 : Real.sqrt (1 + S ^ 2) ^ 2 = 1 + S ^ 2 := Real.sq_sqrt (by positivity)
  have hratio : Real.sin (Real.arctan S) / (2 - Real.cos (Real.arctan S)) = S / (2 * Real.sqrt (1 + S ^ 2) - 1) := by
    rw [Real.sin_arctan, Real.cos_arctan]
    have : (2 - 1 / Real.sqrt (1 + S ^ 2)) = (2 * Real.sqrt (1 + S ^ 2) - 1) / Real.sqrt (1 + S ^ 2) := by
      field_simp
    rw [this, div_div_div_cancel_right₀ hroot.ne']
  rw [hratio]
  set w := Real.sqrt (1 + S ^ 2)
  have hw1 : 1 ≤ w := by nlinarith [sq_nonneg S]
  have hw2 : w ≤ 1 + S ^ 2 / 2 := by nlinarith [sq_nonneg (S ^ 2)]
  have hr0 : 0 ≤ S / (2 * w - 1) := div_nonneg hS0 (by linarith)
  have hrS : S / (2 * w - 1) ≤ S := div_le_self hS0 (by linarith)
  refine ⟨Real.arctan T - Real.arctan (S / (2 * w - 1)), ?_, ?_, ?_, ?_⟩
  · rw [hφ]
    congr 1
    ring
  · have := Real.arctan_strictMono.monotone (hrS.trans hST)
    linarith
  · intro hlt
    have hcpos : 0 < Real.cos (θ / 2) := Real.cos_pos_of_mem_Ioo ⟨by linarith, by linarith⟩
    have hTpos : 0 < T := by rw [hT]; positivity
    have hatp : 0 < Real.arctan T := Real.arctan_pos.mpr hTpos
    have hlt2 : S < T := by
      have : 0 < Real.sin ((φ - θ) / 2) := Real.sin_pos_of_pos_of_lt_pi (by linarith) (by linarith)
      have : 0 < T - S := by rw [hdiff]; positivity
      linarith
    have := Real.arctan_strictMono (hrS.trans_lt hlt2)
    linarith
  · have h1 := arctan_slow (hrS.trans hST)
    have h2 : S - S / (2 * w - 1) ≤ T ^ 3 := by
      have hden : 0 < 2 * w - 1 := by linarith
      have e : S - S / (2 * w - 1) = S * (2 * w - 2) / (2 * w - 1) := by field_simp; ring
      rw [e, div_le_iff₀ hden]
      have a : S * (2 * w - 2) ≤ S * S ^ 2 := mul_le_mul_of_nonneg_left (by linarith) hS0
      have b : S ^ 3 ≤ T ^ 3 := pow_le_pow_left₀ hS0 hST 3
      have c : 0 ≤ T ^ 3 := by positivity
      nlinarith
    have h3 : T - S ≤ κ * T / (2 * Real.sin (θ / 2) * Real.sin (φ / 2)) := by
      rw [hdiff]
      have e : κ * T / (2 * Real.sin (θ / 2) * Real.sin (φ / 2))
          = κ * (T / 2 / (Real.sin (θ / 2) * Real.sin (φ / 2))) := by field_simp
      rw [e]
      apply mul_le_mul_of_nonneg_left _ hκ0.le
      exact div_le_div_of_nonneg_right hhalf (by positivity)
    linarith

/-- The Sun along the first axis, a star to the side. -/
example : Placed !₂[1, 0, 0] !₂[0, 1, 0] := by
  refine ⟨?_, ?_, ?_⟩
  · rw [EuclideanSpace.norm_eq]; simp [Fin.sum_univ_three]
  · rw [EuclideanSpace.norm_eq]; simp [Fin.sum_univ_three]
  · simp [PiLp.inner_apply, Fin.sum_univ_three]

/-- **C114**: whatever the bodies, a deflected direction is a direction. -/
theorem deflection_unit {s : Vec3} (hs : ‖s‖ = 1) (q : Vec3) (rs : ℝ) : ‖bodyDeflection s q rs‖ = 1 := by
  unfold bodyDeflection
  simp only
  split
  · exact hs
  · split
    · exact hs
    · generalize (1 / ‖q‖) • q = p
      generalize rs / ‖q‖ / (1 + inner ℝ s p) = f
      have h0 : inner ℝ s (p - inner ℝ s p • s) = (0 : ℝ) := by
        rw [inner_sub_right, inner_smul_right, real_inner_self_eq_norm_sq, hs]
        ring
      have hn : ‖s + f • (p - inner ℝ s p • s)‖ ≠ 0 := by
        intro h
        have := norm_add_sq_real s (f • (p - inner ℝ s p • s))
        rw [h, hs, inner_smul_right, h0] at this
        nlinarith [sq_nonneg ‖f • (p - inner ℝ s p • s)‖]
      unfold normalize
      rw [norm_smul, Real.norm_of_nonneg (by positivity), one_div, inv_mul_cancel₀ hn]

/-- **C114**: the chain Sun, Jupiter, Saturn gives a direction, and leaves out any body whose vector is absent. -/
theorem full_chain {s : Vec3} (hs : ‖s‖ = 1) (qs qj qr : Vec3) :
    ‖fullDeflection s qs qj qr‖ = 1 ∧
    fullDeflection s qs 0 0 = solarDeflection s qs ∧ fullDeflection s 0 qj 0 = jupiterDeflection s qj ∧
    fullDeflection s 0 0 qr = saturnDeflection s qr := by
  have h0 : ∀ (v : Vec3) (r : ℝ), bodyDeflection v 0 r = v := fun v r =>
    deflection_none v 0 (Or.inl (by rw [norm_zero]; norm_num))
  refine ⟨deflection_unit (deflection_unit (deflection_unit hs _ _) _ _) _ _, ?_, ?_, ?_⟩ <;>
    unfold fullDeflection solarDeflection jupiterDeflection saturnDeflection <;> simp only [h0]

/-- **C114**: at the same distance, Jupiter and Saturn bend light in the ratio of their masses to the Sun's
(IAU mass ratios). -/
theorem planet_scale {p t : Vec3} (h : Placed p t) {d θ : ℝ} (hd : 1e-10 ≤ d) (hθ : 1e-15 ≤ 1 - Real.cos θ) :
    jupiterDeflection (Spec.towards p t θ) (-(d • p))
      = Spec.towards p t (θ + Real.arctan (solarRadius / d * (Real.cos (θ / 2) / Real.sin (θ / 2)) / 1047.348644)) ∧
    saturnDeflection (Spec.towards p t θ) (-(d • p))
      = Spec.towards p t (θ + Real.arctan (solarRadius / d * (Real.cos (θ / 2) / Real.sin (θ / 2)) / 3497.9018)) := by
  have hs : 0 < solarRadius := by unfold solarRadius; norm_num
  unfold jupiterDeflection saturnDeflection
  rw [deflection_angle h hd (by unfold jupiterRadius; positivity) hθ,
    deflection_angle h hd (by unfold saturnRadius; positivity) hθ]
  unfold jupiterRadius saturnRadius
  constructor <;> congr 3 <;> ring

end Verif.Apparent
