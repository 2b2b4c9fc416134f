import Mathlib.Analysis.Calculus.Deriv.Inverse
import Mathlib.Analysis.Calculus.Deriv.Prod
import Mathlib.Analysis.SpecialFunctions.Trigonometric.DerivHyp
import Mathlib.Analysis.Calculus.Deriv.MeanValue
import Mathlib.Analysis.SpecialFunctions.Trigonometric.Bounds
import Mathlib.Topology.Order.MonotoneContinuity
import Verif.Orbit.Model
import Verif.Orbit.Spec
import Verif.Sky.Horizontal

/-
Kepler's equation and the motion in the orbital plane.
-/
namespace Verif.Orbit
open Verif.Orbit.Spec

/-! ### Inverse of an increasing function -/

theorem increasing_inverse {f f' : ℝ → ℝ} (hf : ∀ x, HasDerivAt f (f' x) x) (hp : ∀ x, 0 < f' x)
    (hs : Function.Surjective f) :
    ∃ g : ℝ → ℝ, (∀ y, f (g y) = y) ∧ (∀ x, g (f x) = x) ∧ ∀ y, HasDerivAt g (f' (g y))⁻¹ y := by
  have hm : StrictMono f := strictMono_of_deriv_pos fun x => by rw [(hf x).deriv]; exact hp x
  let o : ℝ ≃o ℝ := StrictMono.orderIsoOfSurjective f hm hs
  have ho : ∀ x, o x = f x := fun _ => rfl
  have hfg : ∀ y, f (o.symm y) = y := fun y => by rw [← ho, OrderIso.apply_symm_apply]
  refine ⟨o.symm, hfg, fun x => by rw [← ho, OrderIso.symm_apply_apply], fun y => ?_⟩
  exact HasDerivAt.of_local_left_inverse o.symm.continuous.continuousAt (hf _) (hp _).ne'
    (Filter.Eventually.of_forall hfg)

theorem surjective_of_bounds {f : ℝ → ℝ} (hc : Continuous f) (hb : ∀ y, ∃ a b, a ≤ b ∧ f a ≤ y ∧ y ≤ f b) :
    Function.Surjective f := by
  intro y
  obtain ⟨a, b, hab, ha, hb⟩ := hb y
  obtain ⟨x, -, hx⟩ := intermediate_value_Icc hab hc.continuousOn ⟨ha, hb⟩
  exact ⟨x, hx⟩

/-- Kepler's equation for ellipses has exactly one solution, which depends smoothly on the mean anomaly. -/
theorem kepler_elliptic {e : ℝ} (h0 : 0 ≤ e) (h1 : e < 1) :
    ∃ g : ℝ → ℝ, (∀ M, g M - e * Real.sin (g M) = M) ∧ (∀ E, g (E - e * Real.sin E) = E) ∧
      ∀ M, HasDerivAt g (1 - e * Real.cos (g M))⁻¹ M := by
  apply increasing_inverse (f := fun x => x - e * Real.sin x) (f' := fun x => 1 - e * Real.cos x)
  · intro x
    exact (hasDerivAt_id x).sub ((Real.hasDerivAt_sin x).const_mul e)
  · intro x
    nlinarith [Real.cos_le_one x]
  · apply surjective_of_bounds (by fun_prop)
    intro y
    refine ⟨y - 1, y + 1, by linarith, ?_, ?_⟩
    · nlinarith [Real.neg_one_le_sin (y - 1)]
    · nlinarith [Real.sin_le_one (y + 1)]

/-- Kepler's equation for hyperbolas. -/
theorem kepler_hyperbolic {e : ℝ} (h1 : 1 < e) :
    ∃ g : ℝ → ℝ, (∀ M, e * Real.sinh (g M) - g M = M) ∧ (∀ H, g (e * Real.sinh H - H) = H) ∧
      ∀ M, HasDerivAt g (e * Real.cosh (g M) - 1)⁻¹ M := by
  apply increasing_inverse (f := fun x => e * Real.sinh x - x) (f' := fun x => e * Real.cosh x - 1)
  · intro x
    exact ((Real.hasDerivAt_sinh x).const_mul e).sub (hasDerivAt_id x)
  · intro x
    nlinarith [Real.one_le_cosh x]
  · apply surjective_of_bounds (by fun_prop)
    intro y
    have hpos : 0 ≤ |y| / (e - 1) := div_nonneg (abs_nonneg _) (by linarith)
    have hs := Real.self_le_sinh_iff.mpr hpos
    have hx : (e - 1) * (|y| / (e - 1)) = |y| := by
      have : e - 1 ≠ 0 := by linarith
      field_simp
    refine ⟨-(|y| / (e - 1)), |y| / (e - 1), by linarith, ?_, ?_⟩
    · rw [Real.sinh_neg]
      nlinarith [neg_abs_le y]
    · nlinarith [le_abs_self y]

/-! ### In the plane -/

/-- Coordinates in the orbital plane that obey Newton's law. -/
structure Planar (μ : ℝ) (X Y VX VY : ℝ → ℝ) : Prop where
  x : ∀ t, HasDerivAt X (VX t) t
  y : ∀ t, HasDerivAt Y (VY t) t
  vx : ∀ t, HasDerivAt VX (-(μ / Real.sqrt (X t ^ 2 + Y t ^ 2) ^ 3) * X t) t
  vy : ∀ t, HasDerivAt VY (-(μ / Real.sqrt (X t ^ 2 + Y t ^ 2) ^ 3) * Y t) t

theorem elliptic_radius {a e : ℝ} (ha : 0 < a) (h0 : 0 ≤ e) (h1 : e < 1) (E : ℝ) :
    Real.sqrt ((a * (Real.cos E - e)) ^ 2 + (a * Real.sqrt (1 - e ^ 2) * Real.sin E) ^ 2)
      = a * (1 - e * Real.cos E) := by
  have hr : 0 ≤ a * (1 - e * Real.cos E) := mul_nonneg ha.le (by nlinarith [Real.cos_le_one E])
  rw [← Real.sqrt_sq hr]
  congr 1
  have hs : Real.sqrt (1 - e ^ 2) ^ 2 = 1 - e ^ 2 := Real.sq_sqrt (by nlinarith)
  have ht := Real.sin_sq_add_cos_sq E
  linear_combination a ^ 2 * Real.sin E ^ 2 * hs + a ^ 2 * (1 - e ^ 2) * ht

theorem elliptic_planar {a e n : ℝ} (ha : 0 < a) (h0 : 0 ≤ e) (h1 : e < 1) {E : ℝ → ℝ}
    (hE : ∀ t, HasDerivAt E (n * (1 - e * Real.cos (E t))⁻¹) t) :
    Planar (n ^ 2 * a ^ 3) (fun t => a * (Real.cos (E t) - e))
      (fun t => a * Real.sqrt (1 - e ^ 2) * Real.sin (E t))
      (fun t => -(a * n * Real.sin (E t) / (1 - e * Real.cos (E t))))
      (fun t => a * n * Real.sqrt (1 - e ^ 2) * Real.cos (E t) / (1 - e * Real.cos (E t))) := by
  have hR : ∀ x, 1 - e * Real.cos x ≠ 0 := fun x => by nlinarith [Real.cos_le_one x]
  have hsin : ∀ t, HasDerivAt (fun t => Real.sin (E t)) (Real.cos (E t) * (n * (1 - e * Real.cos (E t))⁻¹)) t :=
    fun t => (hE t).sin
  have hcos : ∀ t, HasDerivAt (fun t => Real.cos (E t)) (-Real.sin (E t) * (n * (1 - e * Real.cos (E t))⁻¹)) t :=
    fun t => (hE t).cos
  have hden : ∀ t, HasDerivAt (fun t => 1 - e * Real.cos (E t))
      (-(e * (-Real.sin (E t) * (n * (1 - e * Real.cos (E t))⁻¹)))) t :=
    fun t => ((hcos t).const_mul e).const_sub 1
  refine ⟨fun t => ?_, fun t => ?_, fun t => ?_, fun t => ?_⟩
  · refine ((hcos t).sub_const e |>.const_mul a).congr_deriv ?_
    have := hR (E t)
    field_simp
  · refine ((hsin t).const_mul (a * Real.sqrt (1 - e ^ 2))).congr_deriv ?_
    have := hR (E t)
    field_simp
  · refine (((hsin t).const_mul (a * n)).div (hden t) (hR _)).neg.congr_deriv ?_
    rw [elliptic_radius ha h0 h1]
    have h2 := hR (E t)
    have h3 := Real.sin_sq_add_cos_sq (E t)
    have h4 : Real.sin (E t) ^ 2 = 1 - Real.cos (E t) ^ 2 := by linarith
    field_simp
    rw [h4]
    ring
  · refine (((hcos t).const_mul (a * n * Real.sqrt (1 - e ^ 2))).div (hden t) (hR _)).congr_deriv ?_
    rw [elliptic_radius ha h0 h1]
    have h2 := hR (E t)
    field_simp
    ring

theorem hyperbolic_radius {a e : ℝ} (ha : 0 < a) (h1 : 1 < e) (H : ℝ) :
    Real.sqrt ((a * (e - Real.cosh H)) ^ 2 + (a * Real.sqrt (e ^ 2 - 1) * Real.sinh H) ^ 2)
      = a * (e * Real.cosh H - 1) := by
  have hr : 0 ≤ a * (e * Real.cosh H - 1) := mul_nonneg ha.le (by nlinarith [Real.one_le_cosh H])
  rw [← Real.sqrt_sq hr]
  congr 1
  have hs : Real.sqrt (e ^ 2 - 1) ^ 2 = e ^ 2 - 1 := Real.sq_sqrt (by nlinarith)
  have ht := Real.cosh_sq H
  linear_combination a ^ 2 * Real.sinh H ^ 2 * hs + a ^ 2 * (1 - e ^ 2) * ht

theorem hyperbolic_planar {a e n : ℝ} (ha : 0 < a) (h1 : 1 < e) {H : ℝ → ℝ}
    (hH : ∀ t, HasDerivAt H (n * (e * Real.cosh (H t) - 1)⁻¹) t) :
    Planar (n ^ 2 * a ^ 3) (fun t => a * (e - Real.cosh (H t)))
      (fun t => a * Real.sqrt (e ^ 2 - 1) * Real.sinh (H t))
      (fun t => -(a * n * Real.sinh (H t) / (e * Real.cosh (H t) - 1)))
      (fun t => a * n * Real.sqrt (e ^ 2 - 1) * Real.cosh (H t) / (e * Real.cosh (H t) - 1)) := by
  have hR : ∀ x, e * Real.cosh x - 1 ≠ 0 := fun x => by nlinarith [Real.one_le_cosh x]
  have hsin : ∀ t, HasDerivAt (fun t => Real.sinh (H t)) (Real.cosh (H t) * (n * (e * Real.cosh (H t) - 1)⁻¹)) t :=
    fun t => (hH t).sinh
  have hcos : ∀ t, HasDerivAt (fun t => Real.cosh (H t)) (Real.sinh (H t) * (n * (e * Real.cosh (H t) - 1)⁻¹)) t :=
    fun t => (hH t).cosh
  have hden : ∀ t, HasDerivAt (fun t => e * Real.cosh (H t) - 1)
      (e * (Real.sinh (H t) * (n * (e * Real.cosh (H t) - 1)⁻¹))) t :=
    fun t => ((hcos t).const_mul e).sub_const 1
  refine ⟨fun t => ?_, fun t => ?_, fun t => ?_, fun t => ?_⟩
  · refine ((hcos t).const_sub e |>.const_mul a).congr_deriv ?_
    have := hR (H t)
    field_simp
  · refine ((hsin t).const_mul (a * Real.sqrt (e ^ 2 - 1))).congr_deriv ?_
    have := hR (H t)
    field_simp
  · refine (((hsin t).const_mul (a * n)).div (hden t) (hR _)).neg.congr_deriv ?_
    rw [hyperbolic_radius ha h1]
    have h2 := hR (H t)
    have h4 := Real.cosh_sq (H t)
    have h5 : Real.sinh (H t) ^ 2 = Real.cosh (H t) ^ 2 - 1 := by linarith
    field_simp
    rw [h5]
    ring
  · refine (((hcos t).const_mul (a * n * Real.sqrt (e ^ 2 - 1))).div (hden t) (hR _)).congr_deriv ?_
    rw [hyperbolic_radius ha h1]
    have h2 := hR (H t)
    field_simp
    ring

/-! ### In space -/

theorem orient_dist (inc node peri X Y : ℝ) : Spec.dist (orient inc node peri ![X, Y, 0]) = Real.sqrt (X ^ 2 + Y ^ 2) := by
  unfold Spec.dist
  congr 1
  have h1 := Real.sin_sq_add_cos_sq inc
  have h2 := Real.sin_sq_add_cos_sq node
  have h3 := Real.sin_sq_add_cos_sq peri
  simp only [orient, rotZ, rotX, Matrix.cons_val_zero, Matrix.cons_val_one, Matrix.cons_val]
  generalize Real.sin inc = si at *
  generalize Real.cos inc = ci at *
  generalize Real.sin node = sn at *
  generalize Real.cos node = cn at *
  generalize Real.sin peri = sp at *
  generalize Real.cos peri = cp at *
  linear_combination ((cp * X - sp * Y) ^ 2 + ci ^ 2 * (sp * X + cp * Y) ^ 2) * h2 + (sp * X + cp * Y) ^ 2 * h1
    + (X ^ 2 + Y ^ 2) * h3

theorem planar_newton {μ : ℝ} {X Y VX VY : ℝ → ℝ} (h : Planar μ X Y VX VY) (inc node peri : ℝ) :
    Newton μ (fun t => orient inc node peri ![X t, Y t, 0]) (fun t => orient inc node peri ![VX t, VY t, 0]) := by
  have lin : ∀ (A B : ℝ → ℝ) (A' B' t : ℝ), HasDerivAt A A' t → HasDerivAt B B' t →
      HasDerivAt (fun t => orient inc node peri ![A t, B t, 0]) (orient inc node peri ![A', B', 0]) t := by
    intro A B A' B' t hA hB
    rw [hasDerivAt_pi]
    intro i
    have c : ∀ α β : ℝ, HasDerivAt (fun t => α * A t + β * B t) (α * A' + β * B') t :=
      fun α β => (hA.const_mul α).add (hB.const_mul β)
    fin_cases i
    · refine (c (Real.cos node * Real.cos peri - Real.sin node * Real.cos inc * Real.sin peri)
        (-(Real.cos node * Real.sin peri) - Real.sin node * Real.cos inc * Real.cos peri)).congr_deriv ?_ |>.congr_of_eventuallyEq
        (Filter.Eventually.of_forall fun x => ?_) <;>
      · simp [orient, rotZ, rotX]; ring
    · refine (c (Real.sin node * Real.cos peri + Real.cos node * Real.cos inc * Real.sin peri)
        (-(Real.sin node * Real.sin peri) + Real.cos node * Real.cos inc * Real.cos peri)).congr_deriv ?_ |>.congr_of_eventuallyEq
        (Filter.Eventually.of_forall fun x => ?_) <;>
      · simp [orient, rotZ, rotX]; ring
    · refine (c (Real.sin inc * Real.sin peri) (Real.sin inc * Real.cos peri)).congr_deriv ?_ |>.congr_of_eventuallyEq
        (Filter.Eventually.of_forall fun x => ?_) <;>
      · simp [orient, rotZ, rotX]; ring
  intro t
  refine ⟨lin X Y _ _ t (h.x t) (h.y t), ?_⟩
  refine (lin VX VY _ _ t (h.vx t) (h.vy t)).congr_deriv ?_
  rw [orient_dist]
  ext i
  fin_cases i <;> simp [orient, rotZ, rotX] <;> ring

end Verif.Orbit
