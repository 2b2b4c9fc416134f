import Mathlib.Analysis.Real.Pi.Bounds
import Verif.Orbit.Kepler

/-
C81-C84: the computed positions are two-body motions.
-/
namespace Verif.Orbit
open Verif.Text (Res)
open Verif.Sky (atan2 remTau toRad)
open Verif.Orbit.Spec

/-! ### True anomaly and radius -/

theorem cos_sin_two_arctan (x : ℝ) :
    Real.cos (2 * Real.arctan x) = (1 - x ^ 2) / (1 + x ^ 2) ∧
      Real.sin (2 * Real.arctan x) = 2 * x / (1 + x ^ 2) := by
  have hc := Real.cos_sq_arctan x
  have hcp := Real.cos_arctan_pos x
  have hs : Real.sin (Real.arctan x) = x * Real.cos (Real.arctan x) := by
    have := Real.tan_arctan x
    rw [Real.tan_eq_sin_div_cos, div_eq_iff hcp.ne'] at this
    exact this
  have h1 : (1 + x ^ 2 : ℝ) ≠ 0 := by positivity
  rw [Real.cos_two_mul, Real.sin_two_mul, hs]
  constructor
  · rw [hc]; field_simp; ring
  · have : 2 * (x * Real.cos (Real.arctan x)) * Real.cos (Real.arctan x)
        = 2 * x * Real.cos (Real.arctan x) ^ 2 := by ring
    rw [this, hc]; field_simp

/-- **C81 (anomaly).** The computed true anomaly and radius are the polar coordinates of the point of the
ellipse with eccentric anomaly `E`, for every `E`. -/
theorem elliptic_polar {a e : ℝ} (h0 : 0 ≤ e) (h1 : e < 1) (E : ℝ) :
    (ellipticAnomalyRadius E e a).2 * Real.cos (ellipticAnomalyRadius E e a).1 = a * (Real.cos E - e) ∧
    (ellipticAnomalyRadius E e a).2 * Real.sin (ellipticAnomalyRadius E e a).1
      = a * Real.sqrt (1 - e ^ 2) * Real.sin E := by
  unfold ellipticAnomalyRadius atanTan
  dsimp only
  have eE : E = 2 * (E * (1 / 2)) := by ring
  generalize E * (1 / 2) = x at eE
  subst eE
  have hR : 1 - e * Real.cos (2 * x) ≠ 0 := by nlinarith [Real.cos_le_one (2 * x)]
  have hu : Real.sqrt (1 + e) ^ 2 = 1 + e := Real.sq_sqrt (by linarith)
  have hw : Real.sqrt (1 - e) ^ 2 = 1 - e := Real.sq_sqrt (by linarith)
  have hwp : 0 < Real.sqrt (1 - e) := Real.sqrt_pos.mpr (by linarith)
  have huw : Real.sqrt (1 - e ^ 2) = Real.sqrt (1 + e) * Real.sqrt (1 - e) := by
    rw [← Real.sqrt_mul (by linarith)]; congr 1; ring
  have ht := Real.sin_sq_add_cos_sq x
  by_cases hc : Real.cos x = 0
  · rw [if_pos hc, show 2 * (Real.pi / 2) = Real.pi by ring, Real.cos_pi, Real.sin_pi, Real.sin_two_mul,
      Real.cos_two_mul, hc]
    constructor <;> ring
  · rw [if_neg hc]
    obtain ⟨k1, k2⟩ := cos_sin_two_arctan (Real.sqrt (1 + e) * Real.tan x / Real.sqrt (1 - e))
    rw [k1, k2, huw, Real.cos_two_mul, Real.sin_two_mul, Real.tan_eq_sin_div_cos]
    set u := Real.sqrt (1 + e)
    set w := Real.sqrt (1 - e)
    set c := Real.cos x
    set s := Real.sin x
    have hq : 1 + (u * (s / c) / w) ^ 2 = (1 - e * (2 * c ^ 2 - 1)) / (c ^ 2 * (1 - e)) := by
      have hs : s ^ 2 = 1 - c ^ 2 := by linarith
      have he : (1 - e) ≠ 0 := by linarith
      rw [div_pow, mul_pow, div_pow, hu, hw, hs]
      field_simp
      ring
    have hq2 : 1 - (u * (s / c) / w) ^ 2 = 2 - (1 - e * (2 * c ^ 2 - 1)) / (c ^ 2 * (1 - e)) := by
      rw [← hq]; ring
    have hR' : 1 - e * (2 * c ^ 2 - 1) ≠ 0 := by rwa [Real.cos_two_mul] at hR
    have he : (1 - e) ≠ 0 := by linarith
    constructor
    · rw [hq2, hq]
      field_simp
      ring
    · rw [hq]
      have e1 : u * (s / c) / w = u * w * (s / c) / (1 - e) := by
        rw [← hw]; field_simp
      rw [e1]
      field_simp

theorem atan2_double (y x : ℝ) :
    (x ^ 2 + y ^ 2) * Real.cos (2 * atan2 y x) = x ^ 2 - y ^ 2 ∧
      (x ^ 2 + y ^ 2) * Real.sin (2 * atan2 y x) = 2 * x * y := by
  obtain ⟨p1, p2⟩ := Sky.Props.atan2_polar y x
  have hs : Real.sqrt (x ^ 2 + y ^ 2) ^ 2 = x ^ 2 + y ^ 2 := Real.sq_sqrt (by positivity)
  rw [Real.cos_two_mul', Real.sin_two_mul]
  generalize atan2 y x = θ at *
  generalize Real.sqrt (x ^ 2 + y ^ 2) = r at *
  constructor
  · rw [← hs]
    have e1 : r ^ 2 * (Real.cos θ ^ 2 - Real.sin θ ^ 2) = (r * Real.cos θ) ^ 2 - (r * Real.sin θ) ^ 2 := by ring
    rw [e1, p1, p2]
  · rw [← hs]
    have e1 : r ^ 2 * (2 * Real.sin θ * Real.cos θ) = 2 * (r * Real.cos θ) * (r * Real.sin θ) := by ring
    rw [e1, p1, p2]

/-- **C82 (anomaly).** The same for hyperbolas. -/
theorem hyperbolic_polar {a e : ℝ} (h1 : 1 < e) (H : ℝ) :
    (hyperbolicAnomalyRadius H e a).2 * Real.cos (hyperbolicAnomalyRadius H e a).1 = a * (e - Real.cosh H) ∧
    (hyperbolicAnomalyRadius H e a).2 * Real.sin (hyperbolicAnomalyRadius H e a).1
      = a * Real.sqrt (e ^ 2 - 1) * Real.sinh H := by
  unfold hyperbolicAnomalyRadius
  dsimp only
  have eH : H = 2 * (H * (1 / 2)) := by ring
  generalize H * (1 / 2) = x at eH
  subst eH
  have hu : Real.sqrt (e + 1) ^ 2 = e + 1 := Real.sq_sqrt (by linarith)
  have hw : Real.sqrt (e - 1) ^ 2 = e - 1 := Real.sq_sqrt (by linarith)
  have huw : Real.sqrt (e ^ 2 - 1) = Real.sqrt (e + 1) * Real.sqrt (e - 1) := by
    rw [← Real.sqrt_mul (by linarith)]; congr 1; ring
  obtain ⟨k1, k2⟩ := atan2_double (Real.sqrt (e + 1) * Real.sinh x) (Real.sqrt (e - 1) * Real.cosh x)
  have hcs := Real.cosh_sq x
  have hsum : (Real.sqrt (e - 1) * Real.cosh x) ^ 2 + (Real.sqrt (e + 1) * Real.sinh x) ^ 2
      = e * Real.cosh (2 * x) - 1 := by
    rw [mul_pow, mul_pow, hu, hw, Real.cosh_two_mul]
    linear_combination (-1 : ℝ) * hcs
  rw [hsum] at k1 k2
  have hdiff : (Real.sqrt (e - 1) * Real.cosh x) ^ 2 - (Real.sqrt (e + 1) * Real.sinh x) ^ 2
      = e - Real.cosh (2 * x) := by
    rw [mul_pow, mul_pow, hu, hw, Real.cosh_two_mul]
    linear_combination e * hcs
  rw [hdiff] at k1
  constructor
  · rw [mul_assoc, k1]
  · rw [mul_assoc, k2, huw, Real.sinh_two_mul]; ring

/-! ### Rotation into space -/

theorem rotatePrecomputed_orient (r inc node peri nu : ℝ) :
    rotatePrecomputed r (Trig.of inc node peri) nu
      = orient (toRad inc) (toRad node) (toRad peri) ![r * Real.cos nu, r * Real.sin nu, 0] := by
  ext i
  fin_cases i <;> simp [rotatePrecomputed, Trig.of, orient, rotZ, rotX] <;> ring

/-- **C84 (rotation).** The rotation with precomputed sines and the direct one give the same point. -/
theorem rotate_eq (r inc node peri nu : ℝ) :
    rotate r inc peri node nu = rotatePrecomputed r (Trig.of inc node peri) nu := by
  ext i
  fin_cases i <;> simp [rotatePrecomputed, Trig.of, rotate, Real.sin_add, Real.cos_add]

/-! ### Reduction of the mean anomaly -/

theorem modTau_turns (x : ℝ) : ∃ k : ℤ, modTau x = x - k * (2 * Real.pi) := by
  unfold modTau
  split
  · exact ⟨⌊x / (2 * Real.pi)⌋, by ring⟩
  · exact ⟨⌈x / (2 * Real.pi)⌉, by ring⟩

theorem remTau_turns (x : ℝ) : ∃ k : ℤ, remTau x = x - k * (2 * Real.pi) :=
  ⟨⌊x / (2 * Real.pi)⌋, by unfold Sky.remTau; ring⟩

/-! ### The orbit through the periapsis state -/

/-- Mean anomaly against time. -/
theorem elliptic_motion {a e n m0 epoch : ℝ} (ha : 0 < a) (h0 : 0 ≤ e) (h1 : e < 1) (hn : 0 < n)
    (inc node peri : ℝ) {g : ℝ → ℝ} (hg0 : ∀ E, g (E - e * Real.sin E) = E)
    (hg : ∀ M, HasDerivAt g (1 - e * Real.cos (g M))⁻¹ M) :
    ∃ vel, Spec.Orbit (n ^ 2 * a ^ 3) (a * (1 - e)) e inc node peri (epoch - m0 / n)
      (fun t => orient inc node peri ![a * (Real.cos (g (m0 + n * (t - epoch))) - e),
        a * Real.sqrt (1 - e ^ 2) * Real.sin (g (m0 + n * (t - epoch))), 0]) vel := by
  have hE : ∀ t, HasDerivAt (fun t => g (m0 + n * (t - epoch)))
      (n * (1 - e * Real.cos (g (m0 + n * (t - epoch))))⁻¹) t := by
    intro t
    have h2 : HasDerivAt (fun t => m0 + n * (t - epoch)) n t := by
      simpa using (((hasDerivAt_id t).sub_const epoch).const_mul n).const_add m0
    have := (hg (m0 + n * (t - epoch))).comp t h2
    rw [mul_comm]
    exact this
  have hp := elliptic_planar ha h0 h1 hE
  have hz : m0 + n * (epoch - m0 / n - epoch) = 0 := by field_simp; ring
  have hg00 : g 0 = 0 := by simpa using hg0 0
  refine ⟨_, planar_newton hp inc node peri, ?_, ?_⟩
  · rw [hz, hg00]
    simp
  · beta_reduce
    rw [hz, hg00]
    simp only [Real.cos_zero, Real.sin_zero, mul_zero, mul_one, zero_div, neg_zero]
    congr 2
    have h2 : 0 < 1 - e := by linarith
    have h3 : n ^ 2 * a ^ 3 * (1 + e) / (a * (1 - e)) = (a * n * Real.sqrt (1 - e ^ 2) / (1 - e)) ^ 2 := by
      rw [div_pow, mul_pow, Real.sq_sqrt (by nlinarith)]
      field_simp
      ring
    rw [h3, Real.sqrt_sq (by positivity)]

theorem hyperbolic_motion {a e n m0 epoch : ℝ} (ha : 0 < a) (h1 : 1 < e) (hn : 0 < n)
    (inc node peri : ℝ) {g : ℝ → ℝ} (hg0 : ∀ H, g (e * Real.sinh H - H) = H)
    (hg : ∀ M, HasDerivAt g (e * Real.cosh (g M) - 1)⁻¹ M) :
    ∃ vel, Spec.Orbit (n ^ 2 * a ^ 3) (a * (e - 1)) e inc node peri (epoch - m0 / n)
      (fun t => orient inc node peri ![a * (e - Real.cosh (g (m0 + n * (t - epoch)))),
        a * Real.sqrt (e ^ 2 - 1) * Real.sinh (g (m0 + n * (t - epoch))), 0]) vel := by
  have hE : ∀ t, HasDerivAt (fun t => g (m0 + n * (t - epoch)))
      (n * (e * Real.cosh (g (m0 + n * (t - epoch))) - 1)⁻¹) t := by
    intro t
    have h2 : HasDerivAt (fun t => m0 + n * (t - epoch)) n t := by
      simpa using (((hasDerivAt_id t).sub_const epoch).const_mul n).const_add m0
    have := (hg (m0 + n * (t - epoch))).comp t h2
    rw [mul_comm]
    exact this
  have hp := hyperbolic_planar ha h1 hE
  have hz : m0 + n * (epoch - m0 / n - epoch) = 0 := by field_simp; ring
  have hg00 : g 0 = 0 := by simpa using hg0 0
  refine ⟨_, planar_newton hp inc node peri, ?_, ?_⟩
  · rw [hz, hg00]
    simp
  · beta_reduce
    rw [hz, hg00]
    simp only [Real.cosh_zero, Real.sinh_zero, mul_zero, mul_one, zero_div, neg_zero]
    congr 2
    have h2 : 0 < e - 1 := by linarith
    have h3 : n ^ 2 * a ^ 3 * (1 + e) / (a * (e - 1)) = (a * n * Real.sqrt (e ^ 2 - 1) / (e - 1)) ^ 2 := by
      rw [div_pow, mul_pow, Real.sq_sqrt (by nlinarith)]
      field_simp
      ring
    rw [h3, Real.sqrt_sq (by positivity)]

/-! ### What the solver contributes -/

/-- The solver answers for every ellipse, with a residual of at most `τ` in Kepler's equation. -/
def Solver.Elliptic (s : Solver) (τ : ℝ) : Prop :=
  ∀ M e, 0 ≤ e → e < 1 → ∃ E, s.eccentric M e = some E ∧ |E - e * Real.sin E - M| ≤ τ

/-- What the solver answers for hyperbolas solves Kepler's equation; it may fail. -/
def Solver.Hyperbolic (s : Solver) : Prop :=
  ∀ M e H, 1 < e → s.hyperbolic M e = some H → e * Real.sinh H - H = M

/-- A residual `τ` moves the eccentric anomaly by at most `τ / (1 − e)`. -/
theorem residual_anomaly {e : ℝ} (h0 : 0 ≤ e) (h1 : e < 1) (E F : ℝ) :
    (1 - e) * |E - F| ≤ |(E - e * Real.sin E) - (F - e * Real.sin F)| := by
  have hsin : |Real.sin E - Real.sin F| ≤ |E - F| := by
    have e1 := Real.sin_sub_sin E F
    have e2 := Real.abs_sin_le_abs (x := (E - F) / 2)
    have e3 := Real.abs_cos_le_one ((E + F) / 2)
    rw [e1, abs_mul, abs_mul, abs_of_pos (by norm_num : (0 : ℝ) < 2)]
    have e4 : |(E - F) / 2| = |E - F| / 2 := by rw [abs_div, abs_of_pos (by norm_num : (0 : ℝ) < 2)]
    rw [e4] at e2
    nlinarith [abs_nonneg (Real.sin ((E - F) / 2)), abs_nonneg (E - F)]
  have e5 : (E - e * Real.sin E) - (F - e * Real.sin F) = (E - F) - e * (Real.sin E - Real.sin F) := by ring
  rw [e5]
  have e6 := abs_sub_abs_le_abs_sub (E - F) (e * (Real.sin E - Real.sin F))
  rw [abs_mul, abs_of_nonneg h0] at e6
  nlinarith

/-- Two eccentric anomalies give points at most `a` times their difference apart. -/
theorem anomaly_apart {a e : ℝ} (ha : 0 < a) (h0 : 0 ≤ e) (h1 : e < 1) (inc node peri E F : ℝ) :
    apart (orient inc node peri ![a * (Real.cos E - e), a * Real.sqrt (1 - e ^ 2) * Real.sin E, 0])
      (orient inc node peri ![a * (Real.cos F - e), a * Real.sqrt (1 - e ^ 2) * Real.sin F, 0]) ≤ a * |E - F| := by
  have hs : Real.sqrt (1 - e ^ 2) ^ 2 = 1 - e ^ 2 := Real.sq_sqrt (by nlinarith)
  have hsub : apart (orient inc node peri ![a * (Real.cos E - e), a * Real.sqrt (1 - e ^ 2) * Real.sin E, 0])
      (orient inc node peri ![a * (Real.cos F - e), a * Real.sqrt (1 - e ^ 2) * Real.sin F, 0])
      = Spec.dist (orient inc node peri ![a * (Real.cos E - Real.cos F),
        a * Real.sqrt (1 - e ^ 2) * (Real.sin E - Real.sin F), 0]) := by
    unfold apart
    congr 1
    ext i
    fin_cases i <;> simp [orient, rotZ, rotX] <;> ring
  rw [hsub, orient_dist, Real.sqrt_le_left (by positivity)]
  have hb := Real.one_sub_sq_div_two_le_cos (x := E - F)
  rw [Real.cos_sub] at hb
  have t1 := Real.sin_sq_add_cos_sq E
  have t2 := Real.sin_sq_add_cos_sq F
  rw [mul_pow a |E - F|, sq_abs]
  have ha2 : 0 < a ^ 2 := by positivity
  have key : (Real.cos E - Real.cos F) ^ 2 + (1 - e ^ 2) * (Real.sin E - Real.sin F) ^ 2 ≤ (E - F) ^ 2 := by
    nlinarith [sq_nonneg (Real.sin E - Real.sin F), sq_nonneg e,
      mul_nonneg (sq_nonneg e) (sq_nonneg (Real.sin E - Real.sin F))]
  calc (a * (Real.cos E - Real.cos F)) ^ 2 + (a * Real.sqrt (1 - e ^ 2) * (Real.sin E - Real.sin F)) ^ 2
      = a ^ 2 * ((Real.cos E - Real.cos F) ^ 2 + Real.sqrt (1 - e ^ 2) ^ 2 * (Real.sin E - Real.sin F) ^ 2) := by ring
    _ = a ^ 2 * ((Real.cos E - Real.cos F) ^ 2 + (1 - e ^ 2) * (Real.sin E - Real.sin F) ^ 2) := by rw [hs]
    _ ≤ a ^ 2 * (E - F) ^ 2 := by nlinarith

/-- The point computed from the solver's answer for the reduced mean anomaly. -/
theorem solved_point {s : Solver} {τ a e : ℝ} (hs : s.Elliptic τ) (ha : 0 < a) (h0 : 0 ≤ e) (h1 : e < 1)
    {g : ℝ → ℝ} (hg1 : ∀ M, g M - e * Real.sin (g M) = M) {M r : ℝ} (hr : ∃ k : ℤ, r = M - k * (2 * Real.pi))
    (inc node peri : ℝ) :
    ∃ E, s.eccentric r e = some E ∧
      apart (rotatePrecomputed (ellipticAnomalyRadius E e a).2 (Trig.of inc node peri) (ellipticAnomalyRadius E e a).1)
        (orient (toRad inc) (toRad node) (toRad peri) ![a * (Real.cos (g M) - e),
          a * Real.sqrt (1 - e ^ 2) * Real.sin (g M), 0]) ≤ a * (τ / (1 - e)) := by
  obtain ⟨k, hk⟩ := hr
  obtain ⟨E, hE, hres⟩ := hs r e h0 h1
  refine ⟨E, hE, ?_⟩
  rw [rotatePrecomputed_orient, (elliptic_polar h0 h1 E).1, (elliptic_polar h0 h1 E).2]
  have hsin : Real.sin (E + k * (2 * Real.pi)) = Real.sin E := Real.sin_add_int_mul_two_pi E k
  have hcos : Real.cos (E + k * (2 * Real.pi)) = Real.cos E := Real.cos_add_int_mul_two_pi E k
  have h2 := residual_anomaly h0 h1 (E + k * (2 * Real.pi)) (g M)
  rw [hsin, hg1] at h2
  have h3 : E + k * (2 * Real.pi) - e * Real.sin E - M = E - e * Real.sin E - r := by rw [hk]; ring
  rw [h3] at h2
  have h4 := anomaly_apart ha h0 h1 (toRad inc) (toRad node) (toRad peri) (E + k * (2 * Real.pi)) (g M)
  rw [hsin, hcos] at h4
  refine h4.trans (mul_le_mul_of_nonneg_left ?_ ha.le)
  rw [le_div_iff₀ (by linarith)]
  linarith

/-! ### The computed positions -/

/-- Time of periapsis of an element set with mean anomaly `m0` (radians) at `epoch`. -/
noncomputable def periapsisTime (μ a m0 epoch : ℝ) : ℝ := epoch - m0 / Real.sqrt (μ / a ^ 3)

theorem motion_of {a n : ℝ} (ha : 0 < a) (hn : 0 < n) : Real.sqrt (n ^ 2 * a ^ 3 / a ^ 3) = n := by
  rw [mul_div_assoc, div_self (by positivity), mul_one, Real.sqrt_sq hn.le]

theorem elliptic_general {s : Solver} {τ : ℝ} (hs : s.Elliptic τ) {a e n : ℝ} (ha : 0 < a) (h0 : 0 ≤ e)
    (h1 : e < 1) (hn : 0 < n) (m0 epoch inc node peri : ℝ) :
    ∃ pos vel, Spec.Orbit (n ^ 2 * a ^ 3) (a * (1 - e)) e (toRad inc) (toRad node) (toRad peri)
        (periapsisTime (n ^ 2 * a ^ 3) a m0 epoch) pos vel ∧
      ∀ jd r, (∃ k : ℤ, r = m0 + n * (jd - epoch) - k * (2 * Real.pi)) → ∃ E, s.eccentric r e = some E ∧
        apart (rotatePrecomputed (ellipticAnomalyRadius E e a).2 (Trig.of inc node peri)
          (ellipticAnomalyRadius E e a).1) (pos jd) ≤ a * (τ / (1 - e)) := by
  obtain ⟨g, g1, g0, gd⟩ := kepler_elliptic h0 h1
  obtain ⟨vel, hv⟩ := elliptic_motion (m0 := m0) (epoch := epoch) ha h0 h1 hn (toRad inc) (toRad node)
    (toRad peri) g0 gd
  unfold periapsisTime
  rw [motion_of ha hn]
  exact ⟨_, vel, hv, fun jd r hr => solved_point hs ha h0 h1 g1 hr inc node peri⟩

/-- A valid element set. -/
def Elements.Valid (o : Elements) : Prop := 0 < o.a ∧ 0 ≤ o.e ∧ o.e < 1

theorem orbit_general {s : Solver} {τ : ℝ} (hs : s.Elliptic τ) {o : Elements} (ho : o.Valid) {n : ℝ} (hn : 0 < n) :
    ∃ pos vel, Spec.Orbit (n ^ 2 * o.a ^ 3) (o.a * (1 - o.e)) o.e (toRad o.inclination) (toRad o.node)
        (toRad o.periapsis) (periapsisTime (n ^ 2 * o.a ^ 3) o.a (toRad o.m0) o.epoch) pos vel ∧
      ∀ jd, ∃ v, orbitPosition s o n jd = .ok v ∧ apart v (pos jd) ≤ o.a * (τ / (1 - o.e)) := by
  obtain ⟨pos, vel, hv, hp⟩ := elliptic_general hs ho.1 ho.2.1 ho.2.2 hn (toRad o.m0) o.epoch o.inclination
    o.node o.periapsis
  refine ⟨pos, vel, hv, fun jd => ?_⟩
  obtain ⟨E, hE, hd⟩ := hp jd _ (modTau_turns _)
  unfold orbitPosition solveElliptic
  dsimp only
  rw [hE]
  exact ⟨_, rfl, by rw [rotate_eq]; exact hd⟩

theorem toRad_eq (d : ℝ) : toRad d = Spec.radians d := by unfold Sky.toRad Spec.radians; ring

/-- **C84 (two paths).** The direct and the prepared propagation give the same answer for every element set and
date, and so do both constructors. -/
theorem prepared_eq_direct (s : Solver) (o : Elements) (jd : ℝ) :
    keplerPosition s o jd = calculateOrbitPosition s o jd := by
  unfold keplerPosition calculateOrbitPosition orbitPosition preparedPosition
  simp only [rotate_eq, Prepared.of]

theorem heliocentric_motion {a : ℝ} (ha : 0 < a) :
    0 < 2 * Real.pi / periodDays a ∧
      (2 * Real.pi / periodDays a) ^ 2 * a ^ 3 = (2 * Real.pi / 365.256898326) ^ 2 := by
  have hsq := Real.sq_sqrt ha.le
  have hp : 0 < Real.sqrt a := Real.sqrt_pos.mpr ha
  have hpi := Real.pi_pos
  unfold periodDays gaussianYear
  refine ⟨by positivity, ?_⟩
  have e : (a * Real.sqrt a * 365.256898326) ^ 2 = a ^ 3 * 365.256898326 ^ 2 := by
    rw [mul_pow, mul_pow, hsq]; ring
  rw [div_pow, e, div_pow]
  field_simp

/-- **C81 (heliocentric).** `kepler_position` and `PreparedOrbit::position_at` answer for every date. The answers
follow, up to `a τ / (1 − e)`, the orbit through the periapsis state of the elements under Newton's law, with the
solar parameter `(2π / 365.256898326 d)²` AU³/day². `τ` is the residual the solver leaves. -/
theorem kepler_is_orbit {s : Solver} {τ : ℝ} (hs : s.Elliptic τ) {o : Elements} (ho : o.Valid) :
    ∃ pos vel, Spec.Orbit ((2 * Real.pi / 365.256898326) ^ 2) (o.a * (1 - o.e)) o.e (Spec.radians o.inclination)
        (Spec.radians o.node) (Spec.radians o.periapsis)
        (periapsisTime ((2 * Real.pi / 365.256898326) ^ 2) o.a (Spec.radians o.m0) o.epoch) pos vel ∧
      ∀ jd, ∃ v, keplerPosition s o jd = .ok v ∧ apart v (pos jd) ≤ o.a * (τ / (1 - o.e)) := by
  simp only [← toRad_eq]
  obtain ⟨h1, h2⟩ := heliocentric_motion ho.1
  have := orbit_general hs ho h1
  rw [h2] at this
  simp only [prepared_eq_direct]
  exact this

/-- **C81 (any centre).** `position_with_mu` does the same with the given gravitational parameter, in km³/s². -/
theorem with_mu_is_orbit {s : Solver} {τ : ℝ} (hs : s.Elliptic τ) {o : Elements} (ho : o.Valid) {mu : ℝ}
    (hmu : 0 < mu) :
    ∃ pos vel, Spec.Orbit (mu * 86400 ^ 2 / 149597870.7 ^ 3) (o.a * (1 - o.e)) o.e (Spec.radians o.inclination)
        (Spec.radians o.node) (Spec.radians o.periapsis)
        (periapsisTime (mu * 86400 ^ 2 / 149597870.7 ^ 3) o.a (Spec.radians o.m0) o.epoch) pos vel ∧
      ∀ jd, ∃ v, positionWithMu s o jd mu = .ok v ∧ apart v (pos jd) ≤ o.a * (τ / (1 - o.e)) := by
  simp only [← toRad_eq]
  have ha := ho.1
  have hm : 0 < muAuDay mu := by unfold muAuDay; positivity
  have hn : 0 < Real.sqrt (muAuDay mu / (o.a * o.a * o.a)) := Real.sqrt_pos.mpr (by positivity)
  have h2 : Real.sqrt (muAuDay mu / (o.a * o.a * o.a)) ^ 2 * o.a ^ 3 = mu * 86400 ^ 2 / 149597870.7 ^ 3 := by
    rw [Real.sq_sqrt (by positivity)]
    unfold muAuDay
    field_simp
  have := orbit_general hs ho hn
  rw [h2] at this
  exact this

/-- **C81 (mean motion).** `MeanMotionOrbit::position_at`: the mean motion is authoritative and the epoch is a
periapsis. -/
theorem mean_motion_is_orbit {s : Solver} {τ : ℝ} (hs : s.Elliptic τ) {o : MeanMotion} (ha : 0 < o.a)
    (h0 : 0 ≤ o.e) (h1 : o.e < 1) (hn : 0 < o.motion) :
    ∃ pos vel, Spec.Orbit ((o.motion * Real.pi / 180) ^ 2 * o.a ^ 3) (o.a * (1 - o.e)) o.e (Spec.radians o.inclination)
        (Spec.radians o.node) (Spec.radians o.periapsis) o.epoch pos vel ∧
      ∀ jd, ∃ v, meanMotionPosition s o jd = .ok v ∧ apart v (pos jd) ≤ o.a * (τ / (1 - o.e)) := by
  simp only [← toRad_eq]
  have hm : toRad o.motion = o.motion * Real.pi / 180 := by unfold Sky.toRad; ring
  have hn' : 0 < toRad o.motion := by
    rw [hm]; have := Real.pi_pos; positivity
  obtain ⟨pos, vel, hv, hp⟩ := elliptic_general hs ha h0 h1 hn' 0 o.epoch o.inclination o.node o.periapsis
  rw [← hm]
  refine ⟨pos, vel, by simpa [periapsisTime] using hv, fun jd => ?_⟩
  obtain ⟨k, hk⟩ := remTau_turns (toRad o.motion * (jd - o.epoch))
  obtain ⟨E, hE, hd⟩ := hp jd (remTau (toRad o.motion * (jd - o.epoch))) ⟨k, by rw [zero_add]; exact hk⟩
  unfold meanMotionPosition solveElliptic
  dsimp only
  rw [hE]
  exact ⟨_, rfl, hd⟩

theorem gauss_motion {a : ℝ} (ha : 0 < a) :
    0 < gaussK / (a * Real.sqrt a) ∧ (gaussK / (a * Real.sqrt a)) ^ 2 * a ^ 3 = 0.01720209895 ^ 2 := by
  have hsq := Real.sq_sqrt ha.le
  have hp : 0 < Real.sqrt a := Real.sqrt_pos.mpr ha
  have hk : gaussK = 0.01720209895 := rfl
  rw [hk]
  refine ⟨by positivity, ?_⟩
  rw [div_pow, mul_pow, hsq]
  field_simp

/-- **C82 (ellipse).** `ConicOrbit::position_at` with e < 1. -/
theorem conic_elliptic_is_orbit {s : Solver} {τ : ℝ} (hs : s.Elliptic τ) {o : Conic} (hq : 0 < o.q)
    (h0 : 0 ≤ o.e) (h1 : o.e < 1) :
    ∃ pos vel, Spec.Orbit (0.01720209895 ^ 2) o.q o.e (Spec.radians o.inclination) (Spec.radians o.node) (Spec.radians o.periapsis)
        (periapsisTime (0.01720209895 ^ 2) (o.q / (1 - o.e)) (Spec.radians o.m0) o.epoch) pos vel ∧
      ∀ jd, ∃ v, conicPosition s o jd = .ok v ∧ apart v (pos jd) ≤ o.q / (1 - o.e) * (τ / (1 - o.e)) := by
  simp only [← toRad_eq]
  have hE : 0 < 1 - o.e := by linarith
  have ha : 0 < o.q / (1 - o.e) := div_pos hq hE
  obtain ⟨hn, h2⟩ := gauss_motion ha
  have hq' : o.q / (1 - o.e) * (1 - o.e) = o.q := by field_simp
  obtain ⟨pos, vel, hv, hp⟩ := elliptic_general hs ha h0 h1 hn (toRad o.m0) o.epoch o.inclination o.node o.periapsis
  rw [h2, hq'] at hv
  refine ⟨pos, vel, hv, fun jd => ?_⟩
  obtain ⟨E, hE, hd⟩ := hp jd _ (remTau_turns _)
  unfold conicPosition
  dsimp only
  rw [if_pos h1, hE]
  exact ⟨_, rfl, hd⟩

/-- **C82 (hyperbola).** `ConicOrbit::position_at` with e > 1: every position returned lies on one orbit under
Newton's law; a date for which the solver fails gives an error, never a panic. -/
theorem conic_hyperbolic_is_orbit {s : Solver} (hs : s.Hyperbolic) {o : Conic} (hq : 0 < o.q) (h1 : 1 < o.e) :
    ∃ pos vel, Spec.Orbit (0.01720209895 ^ 2) o.q o.e (Spec.radians o.inclination) (Spec.radians o.node) (Spec.radians o.periapsis)
        (periapsisTime (0.01720209895 ^ 2) (o.q / (o.e - 1)) (Spec.radians o.m0) o.epoch) pos vel ∧
      ∀ jd, conicPosition s o jd = .ok (pos jd) ∨ conicPosition s o jd = .err .solver := by
  simp only [← toRad_eq]
  have hE : 0 < o.e - 1 := by linarith
  have ha : 0 < o.q / (o.e - 1) := div_pos hq hE
  obtain ⟨hn, h2⟩ := gauss_motion ha
  have hq' : o.q / (o.e - 1) * (o.e - 1) = o.q := by field_simp
  obtain ⟨g, g1, g0, gd⟩ := kepler_hyperbolic h1
  obtain ⟨vel, hv⟩ := hyperbolic_motion (m0 := toRad o.m0) (epoch := o.epoch) ha h1 hn (toRad o.inclination)
    (toRad o.node) (toRad o.periapsis) g0 gd
  unfold periapsisTime
  have hm := motion_of ha hn
  rw [h2] at hm hv
  rw [hm]
  rw [hq'] at hv
  refine ⟨_, vel, hv, fun jd => ?_⟩
  unfold conicPosition
  dsimp only
  rw [if_neg (by linarith), if_pos h1]
  cases hH : s.hyperbolic (toRad o.m0 + gaussK / (o.q / (o.e - 1) * Real.sqrt (o.q / (o.e - 1))) * (jd - o.epoch)) o.e with
  | none => right; rfl
  | some H =>
    left
    dsimp only
    have hk := hs _ _ _ h1 hH
    rw [rotatePrecomputed_orient, (hyperbolic_polar h1 H).1, (hyperbolic_polar h1 H).2, ← hk, g0]

/-- **C82 (parabola).** Parabolic elements are refused at construction and, if forced, at propagation. -/
theorem parabola_refused (s : Solver) (o : Conic) (h : o.e = 1) (jd : ℝ) :
    (∀ c, o.tryNew ≠ .ok c) ∧ conicPosition s o jd = .err .parabolic := by
  constructor
  · intro c
    unfold Conic.tryNew
    rw [h]
    split
    · simp
    · split <;> simp
  · unfold conicPosition
    dsimp only
    rw [h, if_neg (lt_irrefl _), if_neg (lt_irrefl _)]

/-- **C84 (constant).** The two constants for the Sun agree to 10⁻¹³ rad/day: Kepler's third law through the
Gaussian year and the Gaussian constant itself. -/
theorem solar_constants_agree : |2 * Real.pi / 365.256898326 - 0.01720209895| ≤ 1 / 10 ^ 13 := by
  have h1 := Real.pi_gt_d20
  have h2 := Real.pi_lt_d20
  rw [abs_le]
  constructor
  · rw [le_sub_iff_add_le, le_div_iff₀ (by norm_num)]
    norm_num at h1 ⊢
    linarith
  · rw [sub_le_iff_le_add, div_le_iff₀ (by norm_num)]
    norm_num at h2 ⊢
    linarith

/-! ### Validation -/

/-- **C83.** Exactly the ellipses are accepted, unchanged. -/
theorem elements_validated (o : Elements) : (o.tryNew = .ok o ↔ o.Valid) ∧ ∀ p, o.tryNew = .ok p → p = o := by
  unfold Elements.tryNew checkSma Elements.Valid
  refine ⟨?_, ?_⟩
  · split
    · simp [Except.map]; intro _ h; linarith
    · split
      · simp [Except.map]; intro _ h; linarith
      · split
        · simp [Except.map]; intro h; linarith
        · split
          · simp [Except.map]; intro _ _; linarith
          · rename_i h1 h2 h3 h4
            push Not at h1 h3 h4
            simp [Except.map]
            exact ⟨h3, h1, lt_of_le_of_ne h4 h2⟩
  · intro p
    split
    · simp [Except.map]
    · split
      · simp [Except.map]
      · split
        · simp [Except.map]
        · split
          · simp [Except.map]
          · simp [Except.map]; exact fun h => h.symm

/-- **C83 (no panic).** A prepared orbit made by `try_from_elements` propagates to every date without failing. -/
theorem validated_never_panics {s : Solver} {τ : ℝ} (hs : s.Elliptic τ) {o : Elements} {p : Prepared}
    (hp : Prepared.tryFromElements o = .ok p) (jd : ℝ) : ∃ v, preparedPosition s p jd = .ok v := by
  unfold Prepared.tryFromElements at hp
  cases ht : o.tryNew with
  | error x => rw [ht] at hp; simp [Except.map] at hp
  | ok q =>
    have hq := (elements_validated o).2 q ht
    subst hq
    have hv := (elements_validated q).1.mp ht
    rw [ht] at hp
    simp only [Except.map, Except.ok.injEq] at hp
    subst hp
    obtain ⟨_, _, _, h⟩ := kepler_is_orbit hs hv
    obtain ⟨v, h, -⟩ := h jd
    exact ⟨v, h⟩

/-- **C83 (finding).** `TryFrom<KeplerianOrbit>` accepts everything, although a prepared orbit is said to be
validated: a hyperbola built with `KeplerianOrbit::new` (or deserialised) is prepared without an error, and
propagating it panics at every date when the solver rejects it. -/
theorem try_from_accepts_hyperbola (s : Solver) (hrej : ∀ M e, 1 ≤ e → s.eccentric M e = none) (o : Elements)
    (he : 1 ≤ o.e) :
    (∀ q, o.tryNew ≠ .ok q) ∧ ∃ p, Prepared.tryFrom o = .ok p ∧ ∀ jd, preparedPosition s p jd = .panic := by
  refine ⟨fun q hq => ?_, Prepared.of o, rfl, fun jd => ?_⟩
  · have := (elements_validated o).2 q hq
    subst this
    have := ((elements_validated q).1.mp hq).2.2
    linarith
  · unfold preparedPosition solveElliptic
    dsimp only [Prepared.of]
    rw [hrej _ _ he]
    rfl

/-! ### The C interface -/

/-- **C84 (finding).** For a geocentric orbit the C functions use the Sun's gravitational parameter. Any circular
orbit around the Earth, half a solar Kepler period after a passage: the C body is on the opposite side, while the
Rust transformation they mirror still has it on the same side. -/
theorem c_geocentric_uses_sun {s : Solver} (hs : s.Elliptic 0) (gmSun gmEarth a : ℝ) (ha : 0 < a)
    (hg : 0 < gmEarth) (hg2 : gmEarth ≤ 400000) :
    ∃ jd v w, cBody s ⟨a, 0, 0, 0, 0, 0, 0⟩ 2 jd = .ok v ∧ v 0 = -a ∧
      rustBody s gmSun gmEarth ⟨a, 0, 0, 0, 0, 0, 0⟩ 2 jd = .ok w ∧ 0 < w 0 := by
  have circ : ∀ M : ℝ, s.eccentric M 0 = some M := by
    intro M
    obtain ⟨E, hE, hr⟩ := hs M 0 le_rfl one_pos
    have : E = M := by
      have := abs_nonpos_iff.mp hr
      linarith
    rw [hE, this]
  have pt : ∀ n jd : ℝ, ∃ v, orbitPosition s ⟨a, 0, 0, 0, 0, 0, 0⟩ n jd = .ok v ∧ v 0 = a * Real.cos (n * jd) := by
    intro n jd
    unfold orbitPosition solveElliptic
    dsimp only
    rw [circ]
    refine ⟨_, rfl, ?_⟩
    rw [rotate_eq, rotatePrecomputed_orient, (elliptic_polar le_rfl one_pos _).1, (elliptic_polar le_rfl one_pos _).2]
    obtain ⟨k, hk⟩ := modTau_turns (toRad 0 + n * (jd - 0))
    have hz : toRad 0 = 0 := by simp [Sky.toRad]
    rw [hz] at hk ⊢
    rw [hk, Real.cos_sub_int_mul_two_pi]
    simp [orient, rotZ, rotX]
  have hp : 0 < Real.sqrt a := Real.sqrt_pos.mpr ha
  have hpi := Real.pi_pos
  refine ⟨a * Real.sqrt a * 365.256898326 / 2, ?_⟩
  obtain ⟨v, hv, hv0⟩ := pt (2 * Real.pi / periodDays a) (a * Real.sqrt a * 365.256898326 / 2)
  obtain ⟨w, hw, hw0⟩ := pt (Real.sqrt (muAuDay gmEarth / (a * a * a))) (a * Real.sqrt a * 365.256898326 / 2)
  refine ⟨v, w, ?_, ?_, ?_, ?_⟩
  · unfold cBody
    rw [prepared_eq_direct]
    exact hv
  · rw [hv0]
    have : 2 * Real.pi / periodDays a * (a * Real.sqrt a * 365.256898326 / 2) = Real.pi := by
      unfold periodDays gaussianYear
      field_simp
    rw [this, Real.cos_pi]
    ring
  · exact hw
  · rw [hw0]
    refine mul_pos ha (Real.cos_pos_of_mem_Ioo ⟨?_, ?_⟩)
    · have : 0 ≤ Real.sqrt (muAuDay gmEarth / (a * a * a)) * (a * Real.sqrt a * 365.256898326 / 2) := by positivity
      linarith
    · have e1 : Real.sqrt (muAuDay gmEarth / (a * a * a)) * (a * Real.sqrt a * 365.256898326 / 2)
          = Real.sqrt (muAuDay gmEarth) * (365.256898326 / 2) := by
        have : Real.sqrt (a * a * a) = a * Real.sqrt a := by
          rw [Real.sqrt_mul (by positivity), Real.sqrt_mul_self ha.le]
        rw [Real.sqrt_div (by unfold muAuDay; positivity), this]
        field_simp
      have e2 : Real.sqrt (muAuDay gmEarth) ≤ 1 / 1000 := by
        rw [Real.sqrt_le_left (by norm_num)]
        unfold muAuDay
        rw [div_le_iff₀ (by norm_num)]
        norm_num
        linarith
      have := Real.pi_gt_three
      rw [e1]
      linarith

/-! ### A solver meeting the contract, and concrete orbits -/

open Classical in
/-- Exact solutions of both equations. -/
noncomputable def exactSolver : Solver where
  eccentric M e := if h : ∃ E, E - e * Real.sin E = M then some h.choose else none
  hyperbolic M e := if h : ∃ H, e * Real.sinh H - H = M then some h.choose else none

theorem exactSolver_elliptic : exactSolver.Elliptic 0 := by
  intro M e h0 h1
  obtain ⟨g, g1, -, -⟩ := kepler_elliptic h0 h1
  have h : ∃ E, E - e * Real.sin E = M := ⟨g M, g1 M⟩
  refine ⟨h.choose, by simp [exactSolver, h], ?_⟩
  rw [h.choose_spec, sub_self, abs_zero]

theorem exactSolver_hyperbolic : exactSolver.Hyperbolic := by
  intro M e H _ hH
  unfold exactSolver at hH
  dsimp only at hH
  split at hH
  · rename_i h
    cases hH
    exact h.choose_spec
  · cases hH

/-- The Earth's orbit, eccentricity 0.0167. -/
example : ∃ pos vel, Spec.Orbit ((2 * Real.pi / 365.256898326) ^ 2) (1 * (1 - 0.0167)) 0.0167 (Spec.radians 0.00005)
    (Spec.radians (-11.26064)) (Spec.radians 102.94719)
    (periapsisTime ((2 * Real.pi / 365.256898326) ^ 2) 1 (Spec.radians 100.46435) 2451545) pos vel ∧
    ∀ jd, ∃ v, keplerPosition exactSolver ⟨1, 0.0167, 0.00005, -11.26064, 102.94719, 100.46435, 2451545⟩ jd = .ok v ∧
      apart v (pos jd) ≤ 1 * (0 / (1 - 0.0167)) :=
  kepler_is_orbit exactSolver_elliptic (o := ⟨1, 0.0167, 0.00005, -11.26064, 102.94719, 100.46435, 2451545⟩)
    ⟨one_pos, by norm_num, by norm_num⟩

/-- An interstellar object: q = 0.25, e = 1.2. -/
example : ∃ pos vel, Spec.Orbit (0.01720209895 ^ 2) 0.25 1.2 (Spec.radians 122) (Spec.radians 24) (Spec.radians 241)
    (periapsisTime (0.01720209895 ^ 2) (0.25 / (1.2 - 1)) (Spec.radians 0) 2458006) pos vel ∧
    ∀ jd, conicPosition exactSolver ⟨0.25, 1.2, 122, 24, 241, 0, 2458006⟩ jd = .ok (pos jd) ∨
      conicPosition exactSolver ⟨0.25, 1.2, 122, 24, 241, 0, 2458006⟩ jd = .err .solver :=
  conic_hyperbolic_is_orbit exactSolver_hyperbolic (o := ⟨0.25, 1.2, 122, 24, 241, 0, 2458006⟩)
    (by norm_num) (by norm_num)

/-- The Moon's orbit around the Earth. -/
example : ∃ jd v w, cBody exactSolver ⟨0.00257, 0, 0, 0, 0, 0, 0⟩ 2 jd = .ok v ∧ v 0 = -0.00257 ∧
    rustBody exactSolver 132712440018 398600.4418 ⟨0.00257, 0, 0, 0, 0, 0, 0⟩ 2 jd = .ok w ∧ 0 < w 0 :=
  c_geocentric_uses_sun exactSolver_elliptic _ _ _ (by norm_num) (by norm_num) (by norm_num)

end Verif.Orbit
