import Verif.Sky.Basic
import Mathlib.Tactic.FinCases
import Mathlib.LinearAlgebra.Matrix.Notation
import Mathlib.LinearAlgebra.Matrix.Determinant.Basic

/-
Property C59: conversion to horizontal coordinates.
-/
namespace Verif.Sky.Props
open Verif.Sky

/-- Unit vector of a direction in an equatorial frame: towards the equinox, 90 degrees east of it, the pole. -/
noncomputable def equatorial (ra dec : ℝ) : Fin 3 → ℝ :=
  ![Real.cos dec * Real.cos ra, Real.cos dec * Real.sin ra, Real.sin dec]

/-- Unit vector of a direction of the sky: north, east, up. -/
noncomputable def northEastUp (az alt : ℝ) : Fin 3 → ℝ :=
  ![Real.cos alt * Real.cos az, Real.cos alt * Real.sin az, Real.sin alt]

/-- The rows are the directions north, east and up of the observer, in the equatorial frame: the zenith has
right ascension `lst` and declination `lat`, east is 90 degrees east of it on the equator, north completes the
frame. -/
noncomputable def observer (lst lat : ℝ) : Matrix (Fin 3) (Fin 3) ℝ :=
  Matrix.of ![equatorial lst (lat + Real.pi / 2), equatorial (lst + Real.pi / 2) 0, equatorial lst lat]

/-- The observer's frame is orthonormal (left-handed, as azimuth runs from north through east). -/
theorem observer_orthogonal (lst lat : ℝ) :
    observer lst lat * (observer lst lat).transpose = 1 ∧ (observer lst lat).det = -1 := by
  have h1 := Real.sin_sq_add_cos_sq lst
  have h2 := Real.sin_sq_add_cos_sq lat
  constructor
  · ext i j
    fin_cases i <;> fin_cases j <;>
      simp [observer, equatorial, Matrix.mul_apply, Fin.sum_univ_three, Real.sin_add, Real.cos_add] <;>
      first
        | ring1
        | linear_combination (Real.sin lat ^ 2) * h1 + h2
        | linear_combination (Real.cos lat ^ 2) * h1 + h2
        | linear_combination (Real.sin lat * Real.cos lat) * h1
        | linear_combination (-Real.sin lat * Real.cos lat) * h1
        | linear_combination h1
  · rw [Matrix.det_fin_three]
    simp [observer, equatorial, Real.sin_add, Real.cos_add]
    linear_combination (-Real.sin lat ^ 2 - Real.cos lat ^ 2) * h1 - h2

/-- `atan2` gives the polar angle. -/
theorem atan2_polar (y x : ℝ) :
    Real.sqrt (x ^ 2 + y ^ 2) * Real.cos (atan2 y x) = x ∧ Real.sqrt (x ^ 2 + y ^ 2) * Real.sin (atan2 y x) = y := by
  have hn : ‖(⟨x, y⟩ : ℂ)‖ = Real.sqrt (x ^ 2 + y ^ 2) := by
    rw [Complex.norm_def, Complex.normSq_mk]
    congr 1; ring
  unfold atan2
  rw [← hn]
  exact ⟨Complex.norm_mul_cos_arg _, Complex.norm_mul_sin_arg _⟩

/-- The altitude and azimuth describe the same direction as right ascension and declination, turned into the
frame of the observer. -/
theorem horizontal_rotation (lst ra dec lat : ℝ) :
    northEastUp (horizontal lst ra dec lat).2 (horizontal lst ra dec lat).1 =
      (observer lst lat).mulVec (equatorial ra dec) := by
  unfold horizontal
  dsimp only
  rw [cos_remTau, sin_remTau]
  have hc : Real.cos (lst - ra) = Real.cos lst * Real.cos ra + Real.sin lst * Real.sin ra := Real.cos_sub _ _
  have hs : Real.sin (lst - ra) = Real.sin lst * Real.cos ra - Real.cos lst * Real.sin ra := Real.sin_sub _ _
  have p1 := Real.sin_sq_add_cos_sq (lst - ra)
  have p2 := Real.sin_sq_add_cos_sq dec
  have p3 := Real.sin_sq_add_cos_sq lat
  set u := Real.sin dec * Real.sin lat + Real.cos dec * Real.cos lat * Real.cos (lst - ra) with hu
  set n := Real.sin dec * Real.cos lat - Real.cos dec * Real.cos (lst - ra) * Real.sin lat with hn
  set e := -Real.cos dec * Real.sin (lst - ra) with he
  have hsum : n ^ 2 + e ^ 2 + u ^ 2 = 1 := by
    rw [hu, hn, he]
    linear_combination (Real.sin dec ^ 2 + Real.cos dec ^ 2 * Real.cos (lst - ra) ^ 2) * p3 +
      Real.cos dec ^ 2 * p1 + p2
  have hu1 : u ≤ 1 := by nlinarith [sq_nonneg n, sq_nonneg e]
  have hu2 : -1 ≤ u := by nlinarith [sq_nonneg n, sq_nonneg e]
  have hsin : Real.sin (Real.arcsin u) = u := Real.sin_arcsin hu2 hu1
  have hcos : Real.cos (Real.arcsin u) = Real.sqrt (n ^ 2 + e ^ 2) := by
    rw [Real.cos_arcsin]
    congr 1
    linarith
  obtain ⟨q1, q2⟩ := atan2_polar e n
  unfold northEastUp
  rw [cos_remTau, sin_remTau, hsin, hcos, q1, q2]
  ext i
  fin_cases i
  · simp [observer, equatorial, Matrix.mulVec, dotProduct, Fin.sum_univ_three, Real.sin_add, Real.cos_add]
    rw [hn, hc]; ring
  · simp [observer, equatorial, Matrix.mulVec, dotProduct, Fin.sum_univ_three, Real.sin_add, Real.cos_add]
    rw [he, hs]; ring
  · simp [observer, equatorial, Matrix.mulVec, dotProduct, Fin.sum_univ_three, Real.sin_add, Real.cos_add]
    rw [hu, hc]; ring

/-- Ranges: altitude between -90 and 90 degrees, azimuth in a full turn from north. -/
theorem horizontal_range (lst ra dec lat : ℝ) :
    -(Real.pi / 2) ≤ (horizontal lst ra dec lat).1 ∧ (horizontal lst ra dec lat).1 ≤ Real.pi / 2 ∧
    0 ≤ (horizontal lst ra dec lat).2 ∧ (horizontal lst ra dec lat).2 < 2 * Real.pi :=
  ⟨Real.neg_pi_div_two_le_arcsin _, Real.arcsin_le_pi_div_two _, remTau_nonneg _, remTau_lt _⟩

/-- The direction of a unit vector is read back exactly. -/
theorem equatorial_of_unit {v : Fin 3 → ℝ} (h : v 0 ^ 2 + v 1 ^ 2 + v 2 ^ 2 = 1) :
    equatorial (atan2 (v 1) (v 0)) (Real.arcsin (v 2)) = v := by
  have h1 : v 2 ≤ 1 := by nlinarith [sq_nonneg (v 0), sq_nonneg (v 1)]
  have h2 : -1 ≤ v 2 := by nlinarith [sq_nonneg (v 0), sq_nonneg (v 1)]
  obtain ⟨q1, q2⟩ := atan2_polar (v 1) (v 0)
  unfold equatorial
  rw [Real.sin_arcsin h2 h1, Real.cos_arcsin]
  have : 1 - v 2 ^ 2 = v 0 ^ 2 + v 1 ^ 2 := by linarith
  rw [this, q1, q2]
  ext i
  fin_cases i <;> rfl

/-- A star: with an orthogonal precession-nutation matrix the direction returned is the catalogue direction,
carried to the date by the matrix and then into the frame of the observer. -/
theorem star_rotation {m : Matrix (Fin 3) (Fin 3) ℝ} (hm : m.transpose * m = 1) (lst ra dec lat : ℝ) :
    northEastUp (starHorizontal (some m) lst ra dec lat).2 (starHorizontal (some m) lst ra dec lat).1 =
      (observer lst lat).mulVec (m.mulVec (equatorial ra dec)) ∧
    northEastUp (starHorizontal none lst ra dec lat).2 (starHorizontal none lst ra dec lat).1 =
      (observer lst lat).mulVec (equatorial ra dec) := by
  have hunit : dotProduct (equatorial ra dec) (equatorial ra dec) = 1 := by
    have p1 := Real.sin_sq_add_cos_sq ra
    have p2 := Real.sin_sq_add_cos_sq dec
    simp [equatorial, dotProduct, Fin.sum_univ_three]
    linear_combination (Real.cos dec ^ 2) * p1 + p2
  constructor
  · have hv : (fun i => m i 0 * equatorial ra dec 0 + m i 1 * equatorial ra dec 1 + m i 2 * equatorial ra dec 2) =
        m.mulVec (equatorial ra dec) := by
      ext i
      simp [Matrix.mulVec, dotProduct, Fin.sum_univ_three]
    have hlen : dotProduct (m.mulVec (equatorial ra dec)) (m.mulVec (equatorial ra dec)) = 1 := by
      rw [Matrix.dotProduct_mulVec, Matrix.vecMul_mulVec, hm, Matrix.vecMul_one, hunit]
    unfold starHorizontal
    dsimp only
    rw [horizontal_rotation]
    congr 1
    have := equatorial_of_unit (v := m.mulVec (equatorial ra dec)) (by
      simp only [dotProduct, Fin.sum_univ_three] at hlen
      linarith)
    rw [← hv] at this ⊢
    exact this
  · unfold starHorizontal
    dsimp only
    rw [horizontal_rotation]
    congr 1
    exact equatorial_of_unit (v := equatorial ra dec) (by
      simp only [dotProduct, Fin.sum_univ_three] at hunit
      linarith)

/-- A star at the zenith, and one on the eastern horizon. -/
example : (horizontal 1 1 1 1).1 = Real.pi / 2 := by
  unfold horizontal
  dsimp only
  rw [cos_remTau, sub_self, Real.cos_zero]
  have : Real.sin 1 * Real.sin 1 + Real.cos 1 * Real.cos 1 * 1 = 1 := by
    have := Real.sin_sq_add_cos_sq 1
    linarith
  rw [this, Real.arcsin_one]

end Verif.Sky.Props
