import Verif.Sky.Model
import Mathlib.Tactic.FieldSimp
import Mathlib.Tactic.LinearCombination
import Mathlib.Tactic.Positivity
import Mathlib.Tactic.Linarith
import Mathlib.Tactic.NormNum

namespace Verif.Sky.Props
open Verif.Sky

theorem tau_pos : 0 < 2 * Real.pi := by positivity

theorem remTau_eq (x : ℝ) : ∃ k : ℤ, remTau x = x - k * (2 * Real.pi) := ⟨⌊x / (2 * Real.pi)⌋, by unfold remTau; ring⟩

theorem remTau_nonneg (x : ℝ) : 0 ≤ remTau x := by
  unfold remTau
  have h := Int.floor_le (x / (2 * Real.pi))
  rw [le_div_iff₀ tau_pos] at h
  linarith

theorem remTau_lt (x : ℝ) : remTau x < 2 * Real.pi := by
  unfold remTau
  have h := Int.lt_floor_add_one (x / (2 * Real.pi))
  rw [div_lt_iff₀ tau_pos] at h
  linarith

theorem cos_remTau (x : ℝ) : Real.cos (remTau x) = Real.cos x := by
  obtain ⟨k, hk⟩ := remTau_eq x
  rw [hk]
  exact Real.cos_sub_int_mul_two_pi x k

theorem sin_remTau (x : ℝ) : Real.sin (remTau x) = Real.sin x := by
  obtain ⟨k, hk⟩ := remTau_eq x
  rw [hk]
  exact Real.sin_sub_int_mul_two_pi x k

/-- A number in `[0, 2π)` that differs by whole turns is the reduction. -/
theorem remTau_unique {x y : ℝ} (h0 : 0 ≤ y) (h1 : y < 2 * Real.pi) {k : ℤ} (h : y = x - k * (2 * Real.pi)) :
    remTau x = y := by
  have : ⌊x / (2 * Real.pi)⌋ = k := by
    rw [Int.floor_eq_iff, le_div_iff₀ tau_pos, div_lt_iff₀ tau_pos]
    constructor <;> linarith
  unfold remTau
  rw [this]
  linarith

theorem toRad_toDeg (x : ℝ) : toRad (toDeg x) = x := by
  unfold toRad toDeg
  field_simp [Real.pi_ne_zero]

theorem toDeg_toRad (x : ℝ) : toDeg (toRad x) = x := by
  unfold toRad toDeg
  field_simp [Real.pi_ne_zero]

theorem toRad_lt {a b : ℝ} : toRad a < toRad b ↔ a < b := by
  unfold toRad
  have : 0 < Real.pi / 180 := by positivity
  exact mul_lt_mul_iff_left₀ this

theorem toRad_le {a b : ℝ} : toRad a ≤ toRad b ↔ a ≤ b := by
  unfold toRad
  have : 0 < Real.pi / 180 := by positivity
  exact mul_le_mul_iff_left₀ this

end Verif.Sky.Props
