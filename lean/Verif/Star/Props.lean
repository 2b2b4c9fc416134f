import Verif.Sky.Horizontal
import Verif.Star.Model
import Mathlib.Tactic.FinCases
import Mathlib.LinearAlgebra.Matrix.Notation

/-
C85, C86: motion of stars.
-/
namespace Verif.Star
open Verif.Sky (atan2 remTau toRad toDeg)

/-! ### Specification: uniform motion in a straight line -/

/-- Degrees to radians. -/
noncomputable def radians (d : ℝ) : ℝ := d * Real.pi / 180

/-- Unit vectors at right ascension `ra` and declination `dec` (degrees): outward, to the east, to the north. -/
noncomputable def outward (ra dec : ℝ) : Fin 3 → ℝ :=
  ![Real.cos (radians dec) * Real.cos (radians ra), Real.cos (radians dec) * Real.sin (radians ra), Real.sin (radians dec)]
noncomputable def east (ra : ℝ) : Fin 3 → ℝ := ![-Real.sin (radians ra), Real.cos (radians ra), 0]
noncomputable def north (ra dec : ℝ) : Fin 3 → ℝ :=
  ![-Real.sin (radians dec) * Real.cos (radians ra), -Real.sin (radians dec) * Real.sin (radians ra), Real.cos (radians dec)]

/-- The place in space, in AU. -/
noncomputable def place (p : Position) : Fin 3 → ℝ := p.distance • outward p.ra p.dec

/-- The place after `t` years of a star at distance `r` AU with angular rates `μe`, `μn` (radians per year) and
radial velocity `w` AU per year. -/
noncomputable def uniform (ra dec r μe μn w t : ℝ) : Fin 3 → ℝ :=
  r • outward ra dec + t • ((r * μe) • east ra + (r * μn) • north ra dec + w • outward ra dec)

/-- Milliarcseconds to radians. -/
noncomputable def mas (x : ℝ) : ℝ := radians (x / 3600000)

/-- The place of a star with parallax `plx` (mas), rates `μe`, `μn` (mas per year), radial velocity `v` (km/s)
after `t` years; a year of the velocity has 365.2425 days of 86400 s, an astronomical unit 149597870.7 km. -/
noncomputable def starPlace (ra dec plx μe μn v t : ℝ) : Fin 3 → ℝ :=
  uniform ra dec (1 / mas plx) (mas μe) (mas μn) (v * 86400 * 365.2425 / 149597870.7) t

theorem masToRad_eq (x : ℝ) : masToRad x = mas x := by unfold masToRad mas radians; ring

theorem kms_eq (v : ℝ) : kmsToAuYear v = v * 86400 * 365.2425 / 149597870.7 := by
  unfold kmsToAuYear yearDays; ring

theorem toRad_eq (d : ℝ) : toRad d = radians d := by unfold Sky.toRad radians; ring

theorem toRad_toDeg (x : ℝ) : radians (toDeg x) = x := by
  unfold Sky.toDeg radians
  have := Real.pi_ne_zero
  field_simp

/-- A point in space from its polar angles, as `propagate` computes them. -/
theorem polar_place (x y z : ℝ) (h : 0 < Real.sqrt (x * x + y * y + z * z)) :
    place ⟨toDeg (remTau (atan2 y x)), toDeg (Real.arcsin (z / Real.sqrt (x * x + y * y + z * z))),
      Real.sqrt (x * x + y * y + z * z)⟩ = ![x, y, z] := by
  set r := Real.sqrt (x * x + y * y + z * z) with hr
  have hr2 : r ^ 2 = x * x + y * y + z * z := Real.sq_sqrt (by nlinarith [mul_self_nonneg x, mul_self_nonneg y, mul_self_nonneg z])
  have hz : |z / r| ≤ 1 := by
    rw [abs_div, abs_of_pos h, div_le_one h]
    exact abs_le_of_sq_le_sq (by nlinarith [mul_self_nonneg x, mul_self_nonneg y]) h.le
  rw [abs_le] at hz
  have hs : Real.sin (Real.arcsin (z / r)) = z / r := Real.sin_arcsin hz.1 hz.2
  have hc : r * Real.cos (Real.arcsin (z / r)) = Real.sqrt (x ^ 2 + y ^ 2) := by
    rw [Real.cos_arcsin]
    have e : (1 - (z / r) ^ 2) = (x ^ 2 + y ^ 2) / r ^ 2 := by
      have : r ≠ 0 := h.ne'
      field_simp
      linarith
    rw [e, Real.sqrt_div (by positivity), Real.sqrt_sq h.le]
    field_simp
  obtain ⟨p1, p2⟩ := Sky.Props.atan2_polar y x
  ext i
  fin_cases i
  · simp only [place, outward, toRad_toDeg, Pi.smul_apply, smul_eq_mul]
    simp only [Fin.zero_eta, Matrix.cons_val_zero, Sky.Props.cos_remTau]
    rw [← mul_assoc, hc, p1]
  · simp only [place, outward, toRad_toDeg, Pi.smul_apply, smul_eq_mul]
    simp only [Fin.mk_one, Matrix.cons_val_one, Matrix.cons_val_zero, Sky.Props.sin_remTau]
    rw [← mul_assoc, hc, p2]
  · simp only [place, outward, toRad_toDeg, Pi.smul_apply, smul_eq_mul, hs]
    simp
    field_simp

/-- **C85 (space motion).** When the propagation answers, the star is where uniform motion in a straight line
brings it: from the distance given by the parallax, with the catalogue rates in the tangent plane and the radial
velocity, after the elapsed Julian years. -/
theorem space_motion_straight {pos q : Position} {m : SpaceMotion} {jd epoch : ℝ}
    (h : propagate pos m jd epoch = .ok q) :
    place q = starPlace pos.ra pos.dec m.parallax m.raCosDec m.dec m.radial ((jd - epoch) / 365.25) ∧
      0 < q.distance := by
  unfold starPlace
  rw [← masToRad_eq, ← masToRad_eq, ← masToRad_eq, ← kms_eq]
  unfold propagate at h
  dsimp only at h
  by_cases h1 : |Real.cos (toRad pos.dec)| ≤ cosEps
  · rw [if_pos h1] at h; cases h
  rw [if_neg h1] at h
  by_cases h2 : masToRad m.parallax ≤ 0
  · rw [if_pos h2] at h; cases h
  rw [if_neg h2] at h
  split at h
  · cases h
  · rename_i h3
    push Not at h3
    cases h
    refine ⟨?_, h3⟩
    rw [polar_place _ _ _ h3]
    have hc : Real.cos (radians pos.dec) ≠ 0 := by
      intro hc
      rw [toRad_eq, hc, abs_zero] at h1
      exact h1 (by unfold cosEps; positivity)
    rw [toRad_eq, toRad_eq]
    ext i
    fin_cases i
    · simp [uniform, outward, east, north]
      field_simp
    · simp [uniform, outward, east, north]
      field_simp
    · simp [uniform, outward, east, north]
      field_simp
      exact Or.inl trivial

/-- **C85 (failures).** The propagation fails only at a celestial pole, for a parallax that is not positive, or
when the star passes through the origin. -/
theorem space_motion_fails_iff (pos : Position) (m : SpaceMotion) (jd epoch : ℝ) :
    (∀ q, propagate pos m jd epoch ≠ .ok q) ↔
      |Real.cos (radians pos.dec)| ≤ 1 / 10 ^ 12 ∨ m.parallax ≤ 0 ∨
      starPlace pos.ra pos.dec m.parallax m.raCosDec m.dec m.radial ((jd - epoch) / 365.25) = 0 := by
  unfold starPlace
  rw [← masToRad_eq, ← masToRad_eq, ← masToRad_eq, ← kms_eq]
  have hplx : masToRad m.parallax ≤ 0 ↔ m.parallax ≤ 0 := by
    unfold masToRad
    have := Real.pi_pos
    constructor
    · intro h
      by_contra hn
      push Not at hn
      have : 0 < m.parallax / 3600000 * (Real.pi / 180) := by positivity
      linarith
    · intro h
      have : m.parallax / 3600000 ≤ 0 := by linarith
      exact mul_nonpos_of_nonpos_of_nonneg this (by positivity)
  unfold propagate
  dsimp only
  rw [← toRad_eq]
  by_cases h1 : |Real.cos (toRad pos.dec)| ≤ cosEps
  · rw [if_pos h1]
    exact ⟨fun _ => Or.inl h1, fun _ q => by simp⟩
  rw [if_neg h1]
  by_cases h2 : masToRad m.parallax ≤ 0
  · rw [if_pos h2]
    exact ⟨fun _ => Or.inr (Or.inl (hplx.mp h2)), fun _ q => by simp⟩
  rw [if_neg h2]
  have hc : Real.cos (radians pos.dec) ≠ 0 := by
    intro hc
    rw [toRad_eq, hc, abs_zero] at h1
    exact h1 (by unfold cosEps; positivity)
  have hp : masToRad m.parallax ≠ 0 := fun h => h2 h.le
  have hvec : uniform pos.ra pos.dec (1 / masToRad m.parallax) (masToRad m.raCosDec) (masToRad m.dec)
        (kmsToAuYear m.radial) ((jd - epoch) / 365.25)
      = ![1 / masToRad m.parallax * Real.cos (toRad pos.dec) * Real.cos (toRad pos.ra) +
          (jd - epoch) / 365.25 * (-Real.sin (toRad pos.ra) * (masToRad m.raCosDec / Real.cos (toRad pos.dec) * (1 / masToRad m.parallax) * Real.cos (toRad pos.dec)) + -Real.sin (toRad pos.dec) * Real.cos (toRad pos.ra) * (masToRad m.dec * (1 / masToRad m.parallax)) + Real.cos (toRad pos.dec) * Real.cos (toRad pos.ra) * kmsToAuYear m.radial),
        1 / masToRad m.parallax * Real.cos (toRad pos.dec) * Real.sin (toRad pos.ra) +
          (jd - epoch) / 365.25 * (Real.cos (toRad pos.ra) * (masToRad m.raCosDec / Real.cos (toRad pos.dec) * (1 / masToRad m.parallax) * Real.cos (toRad pos.dec)) + -Real.sin (toRad pos.dec) * Real.sin (toRad pos.ra) * (masToRad m.dec * (1 / masToRad m.parallax)) + Real.cos (toRad pos.dec) * Real.sin (toRad pos.ra) * kmsToAuYear m.radial),
        1 / masToRad m.parallax * Real.sin (toRad pos.dec) +
          (jd - epoch) / 365.25 * (0 * (masToRad m.raCosDec / Real.cos (toRad pos.dec) * (1 / masToRad m.parallax) * Real.cos (toRad pos.dec)) + Real.cos (toRad pos.dec) * (masToRad m.dec * (1 / masToRad m.parallax)) + Real.sin (toRad pos.dec) * kmsToAuYear m.radial)] := by
    rw [toRad_eq, toRad_eq]
    ext i
    fin_cases i
    · simp [uniform, outward, east, north]
      field_simp
    · simp [uniform, outward, east, north]
      field_simp
    · simp [uniform, outward, east, north]
      field_simp
      exact Or.inl trivial
  rw [hvec]
  generalize 1 / masToRad m.parallax * Real.cos (toRad pos.dec) * Real.cos (toRad pos.ra) + _ = x
  generalize 1 / masToRad m.parallax * Real.cos (toRad pos.dec) * Real.sin (toRad pos.ra) + _ = y
  generalize 1 / masToRad m.parallax * Real.sin (toRad pos.dec) + _ = z
  have hz : Real.sqrt (x * x + y * y + z * z) ≤ 0 ↔ ![x, y, z] = (0 : Fin 3 → ℝ) := by
    rw [show Real.sqrt (x * x + y * y + z * z) ≤ 0 ↔ x * x + y * y + z * z ≤ 0 from
      ⟨fun h => Real.sqrt_eq_zero'.mp (le_antisymm h (Real.sqrt_nonneg _)), fun h => (Real.sqrt_eq_zero'.mpr h).le⟩]
    constructor
    · intro h
      have hx : x = 0 := by nlinarith [mul_self_nonneg x, mul_self_nonneg y, mul_self_nonneg z]
      have hy : y = 0 := by nlinarith [mul_self_nonneg x, mul_self_nonneg y, mul_self_nonneg z]
      have hz : z = 0 := by nlinarith [mul_self_nonneg x, mul_self_nonneg y, mul_self_nonneg z]
      subst hx hy hz
      ext i; fin_cases i <;> rfl
    · intro h
      have hx := congrFun h 0
      have hy := congrFun h 1
      have hz := congrFun h 2
      simp at hx hy hz
      subst hx hy hz
      simp
  by_cases h3 : Real.sqrt (x * x + y * y + z * z) ≤ 0
  · rw [if_pos h3]
    exact ⟨fun _ => Or.inr (Or.inr (hz.mp h3)), fun _ q => by simp⟩
  · rw [if_neg h3]
    constructor
    · intro h
      exact absurd rfl (h _)
    · rintro (h | h | h)
      · exact absurd h h1
      · exact absurd (hplx.mpr h) h2
      · exact absurd (hz.mpr h) h3

/-! ### Conventions -/

/-- **C86 (convention).** A star whose right-ascension rate is given as µα moves like the star given by
µα⋆ = µα cos δ, in both propagations. -/
theorem convention_irrelevant (pos : Position) (time μ μd : ℝ) (plx rv : Option ℝ) (jd : ℝ)
    (hpole : 1 / 10 ^ 12 < |Real.cos (radians pos.dec)|) :
    Star.positionAt ⟨pos, time, some ⟨μ, μd, .muAlpha⟩, plx, rv⟩ jd =
      Star.positionAt ⟨pos, time, some ⟨μ * Real.cos (radians pos.dec), μd, .muAlphaStar⟩, plx, rv⟩ jd := by
  have hlin : linear pos ⟨μ, μd, .muAlpha⟩ jd j2000
      = linear pos ⟨μ * Real.cos (radians pos.dec), μd, .muAlphaStar⟩ jd j2000 := by
    unfold linear ProperMotion.rate
    dsimp only
    rw [toRad_eq, if_neg (by unfold cosEps; push Not; exact hpole)]
    have : Real.cos (radians pos.dec) ≠ 0 := by
      intro h
      rw [h, abs_zero] at hpole
      have : (0 : ℝ) < 1 / 10 ^ 12 := by positivity
      linarith
    dsimp only
    rw [mul_div_assoc, div_self this, mul_one]
  cases plx with
  | none => cases rv <;> exact hlin
  | some plx =>
    cases rv with
    | none => exact hlin
    | some rv =>
      unfold Star.positionAt
      dsimp only
      rw [toRad_eq]
      congr 2
      ring

/-- **C85 (stars).** A star with parallax, radial velocity and proper motion (degrees per year) follows the straight
line from its catalogue direction, counted from J2000.0. -/
theorem star_straight (pos : Position) (time μ μd plx rv jd : ℝ) {q : Position}
    (h : Star.positionAt ⟨pos, time, some ⟨μ, μd, .muAlphaStar⟩, some plx, some rv⟩ jd = .ok q) :
    place q = starPlace pos.ra pos.dec plx (μ * 3600000) (μd * 3600000) rv ((jd - 2451545) / 365.25) :=
  (space_motion_straight (jd := jd) (epoch := j2000) h).1

/-- **C86 (static star).** Without proper motion the catalogue position is returned for every date. -/
theorem static_star (pos : Position) (time : ℝ) (plx rv : Option ℝ) (jd : ℝ) :
    Star.positionAt ⟨pos, time, none, plx, rv⟩ jd = .ok pos := by
  cases plx <;> cases rv <;> rfl

/-- **C86 (rates).** Without parallax or radial velocity the declination changes by µδ and the right ascension by
µα per Julian year since J2000.0; the distance stays. -/
theorem linear_rates (pos : Position) (time : ℝ) (pm : ProperMotion) (plx rv : Option ℝ)
    (hmiss : plx = none ∨ rv = none) (jd : ℝ) (q : Position)
    (h : Star.positionAt ⟨pos, time, some pm, plx, rv⟩ jd = .ok q) :
    q.dec = pos.dec + pm.dec * ((jd - 2451545) / 365.25) ∧ q.distance = pos.distance ∧
    (match pm.convention with
      | .muAlpha => q.ra = pos.ra + pm.ra * ((jd - 2451545) / 365.25)
      | .muAlphaStar => (q.ra - pos.ra) * Real.cos (radians pos.dec) = pm.ra * ((jd - 2451545) / 365.25)) := by
  have h' : linear pos pm jd j2000 = .ok q := by
    rcases hmiss with rfl | rfl
    · cases rv <;> exact h
    · cases plx <;> exact h
  unfold linear ProperMotion.rate j2000 at h'
  dsimp only at h'
  cases hc : pm.convention with
  | muAlpha =>
    rw [hc] at h'
    cases h'
    exact ⟨rfl, rfl, rfl⟩
  | muAlphaStar =>
    rw [hc] at h'
    dsimp only at h'
    rw [toRad_eq] at h'
    by_cases hp : |Real.cos (radians pos.dec)| ≤ cosEps
    · rw [if_pos hp] at h'; cases h'
    · rw [if_neg hp] at h'
      cases h'
      refine ⟨rfl, rfl, ?_⟩
      have : Real.cos (radians pos.dec) ≠ 0 := by
        intro hz
        rw [hz, abs_zero] at hp
        exact hp (by unfold cosEps; positivity)
      dsimp only
      field_simp
      ring

/-! ### Findings -/

/-- **C86 (finding).** The epoch of a catalogue entry is ignored: motion is counted from J2000.0. For a star that
moves in declination and whose position is given for another epoch, `position_at` of that very epoch does not
return the catalogue position. -/
theorem catalogue_epoch_ignored (pos : Position) (time μ μd : ℝ) (hμ : μd ≠ 0) (ht : time ≠ 2451545) :
    ∃ q, Star.positionAt ⟨pos, time, some ⟨μ, μd, .muAlpha⟩, none, none⟩ time = .ok q ∧ q.dec ≠ pos.dec := by
  refine ⟨_, rfl, ?_⟩
  intro h
  have h2 : μd * ((time - j2000) / 365.25) = 0 := by linarith [h]
  rcases mul_eq_zero.mp h2 with h3 | h3
  · exact hμ h3
  · have : time - j2000 = 0 := (div_eq_zero_iff.mp h3).resolve_right (by norm_num)
    unfold j2000 at this
    exact ht (by linarith)

/-- **C86 (finding).** Tracking and the altitude searches ignore proper motion altogether: the tracked direction is
the same at all dates, so at every date other than J2000.0 it differs from `position_at`. -/
theorem track_ignores_motion (pos : Position) (time μ μd jd : ℝ) (hμ : μd ≠ 0) (ht : jd ≠ 2451545) :
    ∃ q, Star.positionAt ⟨pos, time, some ⟨μ, μd, .muAlpha⟩, none, none⟩ jd = .ok q ∧
      (Star.track ⟨pos, time, some ⟨μ, μd, .muAlpha⟩, none, none⟩ jd).2 ≠ q.dec ∧
      ∀ fixed, Star.altitudeAt fixed ⟨pos, time, some ⟨μ, μd, .muAlpha⟩, none, none⟩ jd = fixed jd pos.ra pos.dec := by
  refine ⟨_, rfl, ?_, fun _ => rfl⟩
  intro h
  have h1 : pos.dec = pos.dec + μd * ((jd - j2000) / 365.25) := h
  have h2 : μd * ((jd - j2000) / 365.25) = 0 := by linarith [h1]
  rcases mul_eq_zero.mp h2 with h3 | h3
  · exact hμ h3
  · have : jd - j2000 = 0 := (div_eq_zero_iff.mp h3).resolve_right (by norm_num)
    unfold j2000 at this
    exact ht (by linarith)

/-- **C86 (finding).** Two lengths of the year meet: rates given per day are converted with years of 365.2425 days
and applied with years of 365.25 days, so after `d` days a declination rate of `ρ` degrees per day has moved the
star by `ρ d · 365.2425 / 365.25`. -/
theorem mixed_years (pos : Position) (time ρ ρd d : ℝ) :
    ∃ q, Star.positionAt ⟨pos, time, some (ProperMotion.perDay .muAlpha ρ ρd), none, none⟩ (2451545 + d) = .ok q ∧
      q.dec - pos.dec = ρd * d * (365.2425 / 365.25) := by
  refine ⟨_, rfl, ?_⟩
  have : pos.dec + ρd * yearDays * ((2451545 + d - j2000) / 365.25) - pos.dec = ρd * d * (365.2425 / 365.25) := by
    unfold yearDays j2000
    ring
  exact this

/-- The same for the radial velocity: after `d` days a star receding with `v` km/s is
`v · 86400 d · 365.2425 / 365.25` km farther. -/
theorem radial_mixed_years (pos : Position) (plx v d : ℝ) {q : Position} (hv : 0 ≤ v) (hd : 0 ≤ d) (hplx : 0 < plx)
    (h : propagate pos ⟨0, 0, plx, v⟩ (2451545 + d) 2451545 = .ok q) :
    (q.distance - 1 / mas plx) * 149597870.7 = v * 86400 * d * (365.2425 / 365.25) := by
  obtain ⟨h1, h2⟩ := space_motion_straight h
  unfold starPlace at h1
  dsimp only at h1
  rw [← masToRad_eq, ← masToRad_eq, ← kms_eq] at h1
  rw [← masToRad_eq]
  have hm0 : masToRad 0 = 0 := by simp [masToRad]
  have hu : uniform pos.ra pos.dec (1 / masToRad plx) (masToRad 0) (masToRad 0) (kmsToAuYear v)
      ((2451545 + d - 2451545) / 365.25)
      = (1 / masToRad plx + (d / 365.25) * kmsToAuYear v) • outward pos.ra pos.dec := by
    rw [hm0]
    ext i
    simp [uniform]
    ring
  rw [hu] at h1
  have hunit : ∀ ra dec, outward ra dec 0 ^ 2 + outward ra dec 1 ^ 2 + outward ra dec 2 ^ 2 = 1 := by
    intro ra dec
    have a1 := Real.sin_sq_add_cos_sq (radians ra)
    have a2 := Real.sin_sq_add_cos_sq (radians dec)
    simp [outward]
    linear_combination Real.cos (radians dec) ^ 2 * a1 + a2
  have hsq : q.distance ^ 2 = (1 / masToRad plx + (d / 365.25) * kmsToAuYear v) ^ 2 := by
    have e0 := congrFun h1 0
    have e1 := congrFun h1 1
    have e2 := congrFun h1 2
    simp only [place, Pi.smul_apply, smul_eq_mul] at e0 e1 e2
    have := hunit q.ra q.dec
    have t := hunit pos.ra pos.dec
    have s0 := congrArg (· ^ 2) e0
    have s1 := congrArg (· ^ 2) e1
    have s2 := congrArg (· ^ 2) e2
    simp only [mul_pow] at s0 s1 s2
    linear_combination s0 + s1 + s2 - q.distance ^ 2 * this
      + (1 / masToRad plx + (d / 365.25) * kmsToAuYear v) ^ 2 * t
  have hpos : 0 ≤ 1 / masToRad plx + (d / 365.25) * kmsToAuYear v := by
    have h3 : 0 < masToRad plx := by
      unfold masToRad; have := Real.pi_pos; positivity
    have h4 : 0 ≤ kmsToAuYear v := by unfold kmsToAuYear yearDays; positivity
    positivity
  have := (pow_left_inj₀ h2.le hpos (by norm_num)).mp hsq
  rw [this]
  unfold kmsToAuYear yearDays
  field_simp
  ring

/-- Barnard's star: a case in which the propagation answers. -/
example : ∃ q, propagate ⟨0, 0, 1⟩ ⟨-800, 10300, 547, -110⟩ 2451545 2451545 = .ok q := by
  by_contra hn
  push Not at hn
  rcases (space_motion_fails_iff _ _ _ _).mp hn with h | h | h
  · norm_num [radians] at h
  · norm_num at h
  · have h0 := congrFun h 0
    simp [starPlace, uniform, outward, radians, mas] at h0

end Verif.Star
