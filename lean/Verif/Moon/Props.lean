import Mathlib.Analysis.SpecialFunctions.Trigonometric.Bounds
import Verif.Moon.Cache
import Verif.Sky.Horizontal

/-
C80: the altitude used by the lunar searches.
-/
namespace Verif.Moon
open Verif.Text (Res)
open Verif.Sky (atan2 remTau)

/-! ### Geometry of the altitude -/

/-- Unit vector to the zenith of an observer at latitude `lat` and local sidereal time `lst`. -/
noncomputable def zenith (lat lst : ℝ) : V :=
  !₂[Real.cos lat * Real.cos lst, Real.cos lat * Real.sin lst, Real.sin lat]

theorem inner_three (u v : V) : inner ℝ u v = u 0 * v 0 + u 1 * v 1 + u 2 * v 2 := by
  rw [PiLp.inner_apply, Fin.sum_univ_three]
  simp [mul_comm]

theorem norm_sq_three (v : V) : ‖v‖ ^ 2 = v 0 ^ 2 + v 1 ^ 2 + v 2 ^ 2 := by
  rw [EuclideanSpace.norm_sq_eq, Fin.sum_univ_three]
  simp

theorem zenith_norm (lat lst : ℝ) : ‖zenith lat lst‖ = 1 := by
  have h : ‖zenith lat lst‖ ^ 2 = 1 := by
    rw [norm_sq_three]
    have h1 := Real.sin_sq_add_cos_sq lst
    have h2 := Real.sin_sq_add_cos_sq lat
    simp only [zenith, Matrix.cons_val_zero, Matrix.cons_val_one, Matrix.cons_val]
    linear_combination (Real.cos lat ^ 2) * h1 + h2
  have := norm_nonneg (zenith lat lst)
  nlinarith

/-- **C80 (altitude).** The computed altitude is the elevation of the vector above the horizon plane:
its sine is the cosine of the angle from the zenith, and it lies within ±90°. -/
theorem sin_altitudeOf (lat lst : ℝ) (v : V) (hv : v ≠ 0) :
    Real.sin (altitudeOf lat lst v) = inner ℝ (zenith lat lst) v / ‖v‖ ∧
    altitudeOf lat lst v ∈ Set.Icc (-(Real.pi / 2)) (Real.pi / 2) := by
  refine ⟨?_, Real.arcsin_mem_Icc _⟩
  have hn : 0 < ‖v‖ := norm_pos_iff.mpr hv
  have hcs := abs_real_inner_le_norm (zenith lat lst) v
  rw [zenith_norm, one_mul, abs_le] at hcs
  have key : Real.sin (atan2 (v 2) (Real.sqrt (v 0 * v 0 + v 1 * v 1))) * Real.sin lat +
      Real.cos (atan2 (v 2) (Real.sqrt (v 0 * v 0 + v 1 * v 1))) * Real.cos lat *
        Real.cos (remTau (lst - atan2 (v 1) (v 0))) = inner ℝ (zenith lat lst) v / ‖v‖ := by
    rw [eq_div_iff hn.ne', Sky.Props.cos_remTau, Real.cos_sub]
    obtain ⟨p1, p2⟩ := Sky.Props.atan2_polar (v 1) (v 0)
    obtain ⟨q1, q2⟩ := Sky.Props.atan2_polar (v 2) (Real.sqrt (v 0 * v 0 + v 1 * v 1))
    have e0 : v 0 * v 0 + v 1 * v 1 = v 0 ^ 2 + v 1 ^ 2 := by ring
    have e1 : Real.sqrt (Real.sqrt (v 0 * v 0 + v 1 * v 1) ^ 2 + v 2 ^ 2) = ‖v‖ := by
      rw [Real.sq_sqrt (add_nonneg (mul_self_nonneg _) (mul_self_nonneg _)), ← Real.sqrt_sq hn.le, norm_sq_three, e0]
    rw [e1] at q1 q2
    rw [e0] at q1 q2 ⊢
    rw [inner_three]
    simp only [zenith, Matrix.cons_val_zero, Matrix.cons_val_one, Matrix.cons_val]
    generalize atan2 (v 2) (Real.sqrt (v 0 ^ 2 + v 1 ^ 2)) = dec at *
    generalize atan2 (v 1) (v 0) = ra at *
    generalize Real.sqrt (v 0 ^ 2 + v 1 ^ 2) = r at *
    linear_combination (Real.sin lat) * q2 +
      (Real.cos lat * (Real.cos lst * Real.cos ra + Real.sin lst * Real.sin ra)) * q1 +
      (Real.cos lat * Real.cos lst) * p1 + (Real.cos lat * Real.sin lst) * p2
  unfold altitudeOf
  dsimp only
  rw [key, Real.sin_arcsin]
  · rw [le_div_iff₀ hn]; linarith [hcs.1]
  · rw [div_le_iff₀ hn]; linarith [hcs.2]

/-! ### How far rotations with slightly different angles are apart -/

theorem rx_norm (θ : ℝ) (v : V) : ‖rx θ v‖ = ‖v‖ := by
  have h : ‖rx θ v‖ ^ 2 = ‖v‖ ^ 2 := by
    rw [norm_sq_three, norm_sq_three]
    have := Real.sin_sq_add_cos_sq θ
    simp only [rx, Matrix.cons_val_zero, Matrix.cons_val_one, Matrix.cons_val]
    linear_combination (v 1 ^ 2 + v 2 ^ 2) * this
  exact (pow_left_inj₀ (norm_nonneg _) (norm_nonneg _) (by norm_num)).mp h

theorem rz_norm (θ : ℝ) (v : V) : ‖rz θ v‖ = ‖v‖ := by
  have h : ‖rz θ v‖ ^ 2 = ‖v‖ ^ 2 := by
    rw [norm_sq_three, norm_sq_three]
    have := Real.sin_sq_add_cos_sq θ
    simp only [rz, Matrix.cons_val_zero, Matrix.cons_val_one, Matrix.cons_val]
    linear_combination (v 0 ^ 2 + v 1 ^ 2) * this
  exact (pow_left_inj₀ (norm_nonneg _) (norm_nonneg _) (by norm_num)).mp h

theorem rx_sub (θ : ℝ) (v w : V) : rx θ v - rx θ w = rx θ (v - w) := by
  ext i
  fin_cases i <;> simp [rx] <;> ring

theorem rz_sub (θ : ℝ) (v w : V) : rz θ v - rz θ w = rz θ (v - w) := by
  ext i
  fin_cases i <;> simp [rz] <;> ring

theorem two_sub_cos (x : ℝ) : 2 - 2 * Real.cos x ≤ x ^ 2 := by
  linarith [Real.one_sub_sq_div_two_le_cos (x := x)]

theorem rx_angle (θ φ : ℝ) (v : V) : ‖rx θ v - rx φ v‖ ≤ |θ - φ| * ‖v‖ := by
  refine (abs_le_of_sq_le_sq' ?_ (by positivity)).2
  rw [norm_sq_three, mul_pow, sq_abs, norm_sq_three]
  have h1 := Real.sin_sq_add_cos_sq θ
  have h2 := Real.sin_sq_add_cos_sq φ
  have h3 := two_sub_cos (θ - φ)
  rw [Real.cos_sub] at h3
  simp only [rx, PiLp.sub_apply, Matrix.cons_val_zero, Matrix.cons_val_one, Matrix.cons_val]
  have e : (v 0 - v 0) ^ 2 + (Real.cos θ * v 1 - Real.sin θ * v 2 - (Real.cos φ * v 1 - Real.sin φ * v 2)) ^ 2
      + (Real.sin θ * v 1 + Real.cos θ * v 2 - (Real.sin φ * v 1 + Real.cos φ * v 2)) ^ 2
      = (2 - 2 * (Real.cos θ * Real.cos φ + Real.sin θ * Real.sin φ)) * (v 1 ^ 2 + v 2 ^ 2) := by
    linear_combination (v 1 ^ 2 + v 2 ^ 2) * (h1 + h2)
  rw [e]
  nlinarith [sq_nonneg (v 0), sq_nonneg (v 1), sq_nonneg (v 2), sq_nonneg (θ - φ),
    mul_nonneg (sq_nonneg (θ - φ)) (sq_nonneg (v 0)),
    mul_nonneg (sub_nonneg.mpr h3) (add_nonneg (sq_nonneg (v 1)) (sq_nonneg (v 2)))]

theorem rz_angle (θ φ : ℝ) (v : V) : ‖rz θ v - rz φ v‖ ≤ |θ - φ| * ‖v‖ := by
  refine (abs_le_of_sq_le_sq' ?_ (by positivity)).2
  rw [norm_sq_three, mul_pow, sq_abs, norm_sq_three]
  have h1 := Real.sin_sq_add_cos_sq θ
  have h2 := Real.sin_sq_add_cos_sq φ
  have h3 := two_sub_cos (θ - φ)
  rw [Real.cos_sub] at h3
  simp only [rz, PiLp.sub_apply, Matrix.cons_val_zero, Matrix.cons_val_one, Matrix.cons_val]
  have e : (Real.cos θ * v 0 - Real.sin θ * v 1 - (Real.cos φ * v 0 - Real.sin φ * v 1)) ^ 2
      + (Real.sin θ * v 0 + Real.cos θ * v 1 - (Real.sin φ * v 0 + Real.cos φ * v 1)) ^ 2 + (v 2 - v 2) ^ 2
      = (2 - 2 * (Real.cos θ * Real.cos φ + Real.sin θ * Real.sin φ)) * (v 0 ^ 2 + v 1 ^ 2) := by
    linear_combination (v 0 ^ 2 + v 1 ^ 2) * (h1 + h2)
  rw [e]
  nlinarith [sq_nonneg (v 0), sq_nonneg (v 1), sq_nonneg (v 2), sq_nonneg (θ - φ),
    mul_nonneg (sq_nonneg (θ - φ)) (sq_nonneg (v 2)),
    mul_nonneg (sub_nonneg.mpr h3) (add_nonneg (sq_nonneg (v 0)) (sq_nonneg (v 1)))]

theorem nutation_norm (n : ℝ × ℝ × ℝ) (v : V) : ‖nutationRotation n v‖ = ‖v‖ := by
  unfold nutationRotation
  rw [rx_norm, rz_norm, rx_norm]

theorem nutation_sub (n : ℝ × ℝ × ℝ) (v w : V) :
    nutationRotation n v - nutationRotation n w = nutationRotation n (v - w) := by
  unfold nutationRotation
  rw [rx_sub, rz_sub, rx_sub]

/-- **C80 (nutation).** Without nutation the true equator is the mean equator: the matrix is the identity. With
`Δψ = 0` it is the rotation by `Δε` about the equinox. -/
theorem nutation_identity (dε ε : ℝ) (v : V) : nutationRotation (0, dε, ε) v = rx dε v ∧ rx 0 v = v := by
  have h := Real.sin_sq_add_cos_sq ε
  constructor
  · ext i
    fin_cases i
    · simp [nutationRotation, rx, rz]
    · simp [nutationRotation, rx, rz, Real.cos_add, Real.sin_add]
      linear_combination (Real.cos dε * v 1 - Real.sin dε * v 2) * h
    · simp [nutationRotation, rx, rz, Real.cos_add, Real.sin_add]
      linear_combination (Real.sin dε * v 1 + Real.cos dε * v 2) * h
  · ext i
    fin_cases i <;> simp [rx]

/-- Nutation matrices from angles within `δ` of each other differ by at most `4 δ`. -/
theorem nutation_angle {n m : ℝ × ℝ × ℝ} {δ : ℝ} (h1 : |n.1 - m.1| ≤ δ) (h2 : |n.2.1 - m.2.1| ≤ δ)
    (h3 : |n.2.2 - m.2.2| ≤ δ) (v : V) :
    ‖nutationRotation n v - nutationRotation m v‖ ≤ 4 * δ * ‖v‖ := by
  unfold nutationRotation
  have hv := norm_nonneg v
  have a1 : ‖rx (n.2.2 + n.2.1) (rz n.1 (rx (-n.2.2) v)) - rx (m.2.2 + m.2.1) (rz n.1 (rx (-n.2.2) v))‖
      ≤ 2 * δ * ‖v‖ := by
    refine (rx_angle _ _ _).trans ?_
    rw [rz_norm, rx_norm]
    refine mul_le_mul_of_nonneg_right ?_ hv
    have e : n.2.2 + n.2.1 - (m.2.2 + m.2.1) = (n.2.2 - m.2.2) + (n.2.1 - m.2.1) := by ring
    rw [e]
    exact (abs_add_le _ _).trans (by linarith)
  have a2 : ‖rx (m.2.2 + m.2.1) (rz n.1 (rx (-n.2.2) v)) - rx (m.2.2 + m.2.1) (rz m.1 (rx (-n.2.2) v))‖
      ≤ δ * ‖v‖ := by
    rw [rx_sub, rx_norm]
    refine (rz_angle _ _ _).trans ?_
    rw [rx_norm]
    exact mul_le_mul_of_nonneg_right h1 hv
  have a3 : ‖rx (m.2.2 + m.2.1) (rz m.1 (rx (-n.2.2) v)) - rx (m.2.2 + m.2.1) (rz m.1 (rx (-m.2.2) v))‖
      ≤ δ * ‖v‖ := by
    rw [rx_sub, rx_norm, rz_sub, rz_norm]
    refine (rx_angle _ _ _).trans ?_
    refine mul_le_mul_of_nonneg_right ?_ hv
    have e : -n.2.2 - -m.2.2 = -(n.2.2 - m.2.2) := by ring
    rw [e, abs_neg]
    exact h3
  have t := norm_sub_le_norm_sub_add_norm_sub (rx (n.2.2 + n.2.1) (rz n.1 (rx (-n.2.2) v)))
    (rx (m.2.2 + m.2.1) (rz n.1 (rx (-n.2.2) v))) (rx (m.2.2 + m.2.1) (rz m.1 (rx (-m.2.2) v)))
  have t2 := norm_sub_le_norm_sub_add_norm_sub (rx (m.2.2 + m.2.1) (rz n.1 (rx (-n.2.2) v)))
    (rx (m.2.2 + m.2.1) (rz m.1 (rx (-n.2.2) v))) (rx (m.2.2 + m.2.1) (rz m.1 (rx (-m.2.2) v)))
  linarith

theorem zenith_angle (lat s r : ℝ) : ‖zenith lat s - zenith lat r‖ ≤ |s - r| := by
  have e : ∀ x, zenith lat x = rz x (zenith lat 0) := by
    intro x
    ext i
    fin_cases i <;> simp [zenith, rz] <;> ring
  rw [e s, e r]
  have := rz_angle s r (zenith lat 0)
  rwa [zenith_norm, mul_one] at this

/-- Directions of two vectors: at most twice the relative distance apart. -/
theorem direction_close (v w : V) (hw : w ≠ 0) (hv : v ≠ 0) :
    ‖(‖v‖⁻¹ • v) - (‖w‖⁻¹ • w)‖ ≤ 2 * ‖v - w‖ / ‖w‖ := by
  have nv : 0 < ‖v‖ := norm_pos_iff.mpr hv
  have nw : 0 < ‖w‖ := norm_pos_iff.mpr hw
  have e : (‖v‖⁻¹ • v) - (‖w‖⁻¹ • w) = ‖w‖⁻¹ • ((v - w) + ((‖w‖ - ‖v‖) * ‖v‖⁻¹) • v) := by
    rw [smul_add, smul_sub, smul_smul]
    have : ‖w‖⁻¹ * ((‖w‖ - ‖v‖) * ‖v‖⁻¹) = ‖v‖⁻¹ - ‖w‖⁻¹ := by
      field_simp
    rw [this, sub_smul]
    abel
  rw [e, norm_smul, norm_inv, norm_norm, inv_mul_eq_div]
  refine div_le_div_of_nonneg_right ?_ nw.le
  refine (norm_add_le _ _).trans ?_
  have : ‖((‖w‖ - ‖v‖) * ‖v‖⁻¹) • v‖ = |‖w‖ - ‖v‖| := by
    rw [norm_smul, norm_mul, norm_inv, norm_norm, Real.norm_eq_abs, mul_assoc, inv_mul_cancel₀ nv.ne',
      mul_one]
  rw [this]
  have := abs_norm_sub_norm_le w v
  rw [norm_sub_rev] at this
  linarith

/-- **C80 (error of the tables).** The sine of the altitude from a position off by at most `ε`
kilometres and nutation angles off by at most `δ` radians differs from the exact chain by at most
`γ + 4 δ + 2 ε / D`, for a Moon at least `D` kilometres from the observer; `γ` is the effect of the
angles on sidereal time, and precession is any distance-preserving map. -/
theorem altitude_error (chain : Chain) (site : V) (lat lon t : ℝ)
    (hprec : ∀ v w, ‖chain.precession t v - chain.precession t w‖ = ‖v - w‖)
    (hzero : chain.precession t 0 = 0)
    (p q : V) (n m : ℝ × ℝ × ℝ) (ε δ γ D : ℝ) (hD : 0 < D) (hε : ε < D)
    (hpos : ‖p - q‖ ≤ ε) (h1 : |n.1 - m.1| ≤ δ) (h2 : |n.2.1 - m.2.1| ≤ δ) (h3 : |n.2.2 - m.2.2| ≤ δ)
    (hγ : |chain.gast t n.1 n.2.2 - chain.gast t m.1 m.2.2| ≤ γ)
    (hfar : D ≤ ‖rx obliquity q - chain.siteRotation t site‖) :
    |Real.sin (altitudeFrom chain site lat lon t p n) - Real.sin (altitudeFrom chain site lat lon t q m)|
      ≤ γ + 4 * δ + 2 * ε / D := by
  unfold altitudeFrom
  dsimp only
  set S := chain.siteRotation t site
  have hpn : ∀ v, ‖chain.precession t v‖ = ‖v‖ := fun v => by
    have := hprec v 0
    rwa [hzero, sub_zero, sub_zero] at this
  have hd : ‖(rx obliquity p - S) - (rx obliquity q - S)‖ ≤ ε := by
    rw [sub_sub_sub_cancel_right, rx_sub, rx_norm]
    exact hpos
  set a := rx obliquity p - S
  set b := rx obliquity q - S
  have hb : 0 < ‖b‖ := lt_of_lt_of_le hD hfar
  have ha : 0 < ‖a‖ := by
    have := norm_sub_norm_le b a
    rw [norm_sub_rev b a] at this
    linarith
  set P := chain.precession t a
  set Q := chain.precession t b
  have hP : ‖P‖ = ‖a‖ := hpn a
  have hQ : ‖Q‖ = ‖b‖ := hpn b
  have hPQ : ‖P - Q‖ ≤ ε := (hprec a b).trans_le hd
  set z := zenith lat (chain.gast t n.1 n.2.2 + lon)
  set z' := zenith lat (chain.gast t m.1 m.2.2 + lon)
  have hz : ‖z - z'‖ ≤ γ := by
    refine (zenith_angle _ _ _).trans ?_
    rw [add_sub_add_right_eq_sub]
    exact hγ
  have nz : ‖z'‖ = 1 := zenith_norm _ _
  set v := nutationRotation n P
  set w := nutationRotation m P
  set u := nutationRotation m Q
  have nv : ‖v‖ = ‖a‖ := (nutation_norm _ _).trans hP
  have nw : ‖w‖ = ‖a‖ := (nutation_norm _ _).trans hP
  have nu : ‖u‖ = ‖b‖ := (nutation_norm _ _).trans hQ
  have v0 : v ≠ 0 := norm_pos_iff.mp (by rw [nv]; exact ha)
  have w0 : w ≠ 0 := norm_pos_iff.mp (by rw [nw]; exact ha)
  have u0 : u ≠ 0 := norm_pos_iff.mp (by rw [nu]; exact hb)
  rw [(sin_altitudeOf _ _ v v0).1, (sin_altitudeOf _ _ u u0).1]
  have hvw : ‖(‖v‖⁻¹ • v) - (‖w‖⁻¹ • w)‖ ≤ 4 * δ := by
    rw [nv, nw, ← smul_sub, norm_smul, norm_inv, norm_norm, inv_mul_eq_div, div_le_iff₀ ha, ← hP]
    exact nutation_angle h1 h2 h3 P
  have hwu : ‖(‖w‖⁻¹ • w) - (‖u‖⁻¹ • u)‖ ≤ 2 * ε / D := by
    refine (direction_close w u u0 w0).trans ?_
    have e : ‖w - u‖ ≤ ε := by
      rw [show w - u = nutationRotation m (P - Q) from nutation_sub _ _ _, nutation_norm]
      exact hPQ
    have hε0 : 0 ≤ ε := (norm_nonneg _).trans e
    rw [nu]
    exact div_le_div₀ (by linarith) (by linarith) hD hfar
  have key : inner ℝ z v / ‖v‖ - inner ℝ z' u / ‖u‖
      = inner ℝ (z - z') (‖v‖⁻¹ • v) + inner ℝ z' ((‖v‖⁻¹ • v) - (‖w‖⁻¹ • w))
        + inner ℝ z' ((‖w‖⁻¹ • w) - (‖u‖⁻¹ • u)) := by
    simp only [inner_sub_left, inner_sub_right, real_inner_smul_right, div_eq_inv_mul]
    ring
  rw [show zenith lat (chain.gast t n.1 n.2.2 + lon) = z from rfl,
    show zenith lat (chain.gast t m.1 m.2.2 + lon) = z' from rfl, key]
  have b1 := abs_real_inner_le_norm (z - z') (‖v‖⁻¹ • v)
  have b2 := abs_real_inner_le_norm z' ((‖v‖⁻¹ • v) - (‖w‖⁻¹ • w))
  have b3 := abs_real_inner_le_norm z' ((‖w‖⁻¹ • w) - (‖u‖⁻¹ • u))
  have unit : ‖‖v‖⁻¹ • v‖ = 1 := by
    rw [norm_smul, norm_inv, norm_norm, inv_mul_cancel₀ (norm_pos_iff.mpr v0).ne']
  rw [unit, mul_one] at b1
  rw [nz, one_mul] at b2 b3
  refine (abs_add_three _ _ _).trans ?_
  linarith

/-- **C80 (never fails).** The cached altitude is computed for every instant, window, site and model:
no index out of range. -/
theorem cached_always_answers (cheby : Cheby) (chain : Chain) (moon : ℝ → V)
    (nutB : ℝ → ℝ × ℝ × ℝ) (site : V) (lat lon a b t : ℝ) :
    ∃ h, cachedAltitude cheby chain moon nutB site lat lon a b t = .ok h := by
  obtain ⟨p, hp⟩ := position_always_answers cheby moon a b t
  obtain ⟨n, hn⟩ := nutation_always_answers nutB a b t
  unfold cachedAltitude
  rw [hp, hn]
  exact ⟨_, rfl⟩

/-- **C80.** The altitude the lunar searches use is the altitude of the direct chain up to
`6 (m/1152 + β) + 4 ε / D` in the sine: `m` bounds the second derivative of the nutation angles, `β` the
difference of the two nutation series, `ε` the coordinate error of nine-node interpolation over four
days, `D` the distance of the Moon. For every instant, inside or outside the window. -/
theorem cached_close_to_direct (cheby : Cheby) (chain : Chain) (moon : ℝ → V)
    (nutA nutB : ℝ → ℝ × ℝ × ℝ) (site : V) (lat lon a b t m β ε D : ℝ)
    (hprec : ∀ v w, ‖chain.precession t v - chain.precession t w‖ = ‖v - w‖)
    (hzero : chain.precession t 0 = 0)
    (hgast : ∀ p e p' e', |chain.gast t p e - chain.gast t p' e'| ≤ |p - p'| + |e - e'|)
    (hm : 0 ≤ m) (c1 : Curved m (fun x => (nutB x).1)) (c2 : Curved m (fun x => (nutB x).2.1))
    (c3 : Curved m (fun x => (nutB x).2.2))
    (d1 : |(nutB t).1 - (nutA t).1| ≤ β) (d2 : |(nutB t).2.1 - (nutA t).2.1| ≤ β)
    (d3 : |(nutB t).2.2 - (nutA t).2.2| ≤ β)
    (hε : 0 ≤ ε) (hfit : ∀ i, Fits cheby (fun t => moon t i) ε) (hD : 2 * ε < D)
    (hfar : D ≤ ‖rx obliquity (moon t) - chain.siteRotation t site‖) :
    ∃ h, cachedAltitude cheby chain moon nutB site lat lon a b t = .ok h ∧
      |Real.sin h - Real.sin (directAltitude chain moon nutA site lat lon t)|
        ≤ 6 * (m / 1152 + β) + 4 * ε / D := by
  obtain ⟨p, hp⟩ := position_always_answers cheby moon a b t
  obtain ⟨n, hn⟩ := nutation_always_answers nutB a b t
  have ep := position_accurate cheby moon ε hε hfit a b t p hp
  obtain ⟨n1, n2, n3⟩ := nutation_accurate nutB m hm c1 c2 c3 a b t n hn
  refine ⟨altitudeFrom chain site lat lon t p n, by unfold cachedAltitude; rw [hp, hn]; rfl, ?_⟩
  have e1 : |n.1 - (nutA t).1| ≤ m / 1152 + β := (abs_sub_le _ (nutB t).1 _).trans (add_le_add n1 d1)
  have e2 : |n.2.1 - (nutA t).2.1| ≤ m / 1152 + β :=
    (abs_sub_le _ (nutB t).2.1 _).trans (add_le_add n2 d2)
  have e3 : |n.2.2 - (nutA t).2.2| ≤ m / 1152 + β :=
    (abs_sub_le _ (nutB t).2.2 _).trans (add_le_add n3 d3)
  have hg := (hgast n.1 n.2.2 (nutA t).1 (nutA t).2.2).trans (add_le_add e1 e3)
  have := altitude_error chain site lat lon t hprec hzero p (moon t) n (nutA t) (2 * ε)
    (m / 1152 + β) _ D (by linarith) hD ep e1 e2 e3 hg hfar
  refine this.trans (le_of_eq ?_)
  ring

/-! ### A concrete case

Constant nutation angles, a Moon at rest 384 400 km away, constant interpolation. -/

/-- Interpolation that keeps the value at the first node. -/
noncomputable def flat : Cheby := ⟨ℝ, fun k => (k : ℝ) / 8, fun f => f 0, fun c _ => c⟩

theorem flat_fits (c : ℝ) : Fits flat (fun _ => c) 0 := by
  intro s x _ _
  simp [flat]

theorem curved_const (c : ℝ) : Curved 0 (fun _ => c) := by
  constructor
  · simpa using convexOn_const (𝕜 := ℝ) c convex_univ
  · simpa using convexOn_const (𝕜 := ℝ) (-c) convex_univ

/-- Site at the origin of longitudes, no precession, sidereal time with the equation of the
equinoxes. -/
noncomputable def still : Chain := ⟨fun _ v => v, fun _ v => v, fun t p _ => t + p * (1 / 2)⟩

example (a b t lat lon : ℝ) : ∃ h,
    cachedAltitude flat still (fun _ => !₂[384400, 0, 0]) (fun _ => (1 / 10000, 1 / 20000, 2 / 5))
      !₂[6378, 0, 0] lat lon a b t = .ok h ∧
    |Real.sin h - Real.sin (directAltitude still (fun _ => !₂[384400, 0, 0])
      (fun _ => (1 / 10000 + 1 / 100000, 1 / 20000, 2 / 5)) !₂[6378, 0, 0] lat lon t)|
      ≤ 6 * (0 / 1152 + 1 / 100000) + 4 * 0 / 378022 := by
  refine cached_close_to_direct flat still _ _ _ _ lat lon a b t 0 (1 / 100000) 0 378022
    (fun v w => rfl) rfl ?_ le_rfl (curved_const _) (curved_const _) (curved_const _) ?_ ?_ ?_ le_rfl
    (fun i => flat_fits _) (by norm_num) ?_
  · intro p e p' e'
    have : still.gast t p e - still.gast t p' e' = (p - p') * (1 / 2) := by simp [still]; ring
    rw [this, abs_mul, abs_of_pos (by norm_num : (0 : ℝ) < 1 / 2)]
    linarith [abs_nonneg (p - p'), abs_nonneg (e - e')]
  · norm_num [abs_le]
  · norm_num
  · norm_num
  · refine (abs_le_of_sq_le_sq' ?_ (norm_nonneg _)).2
    rw [norm_sq_three]
    simp [rx, still]
    norm_num

end Verif.Moon
