import Verif.Sky.Basic

/-
Property C43: twilight classes.
-/
namespace Verif.Sky.Props
open Verif.Sky

/-- The documented table (classification.rs, lines 85-91). -/
theorem twilight_table (x : ℝ) :
    (twilight (some x) = .day ↔ 0 < x) ∧
    (twilight (some x) = .civil ↔ -6 < x ∧ x ≤ 0) ∧
    (twilight (some x) = .nautical ↔ -12 < x ∧ x ≤ -6) ∧
    (twilight (some x) = .astronomical ↔ -18 < x ∧ x ≤ -12) ∧
    (twilight (some x) = .dark ↔ x ≤ -18) := by
  unfold twilight gt
  simp only [decide_eq_true_eq]
  by_cases h0 : 0 < x
  · simp only [h0, if_true]; refine ⟨by simp, ?_, ?_, ?_, ?_⟩ <;> simp <;> intros <;> linarith
  by_cases h1 : -6 < x
  · simp only [h0, h1, if_true, if_false]
    refine ⟨by simp, ?_, ?_, ?_, ?_⟩ <;> simp <;> intros <;> linarith
  by_cases h2 : -12 < x
  · simp only [h0, h1, h2, if_true, if_false]
    refine ⟨by simp, ?_, ?_, ?_, ?_⟩ <;> simp <;> intros <;> linarith
  by_cases h3 : -18 < x
  · simp only [h0, h1, h2, h3, if_true, if_false]
    refine ⟨by simp, ?_, ?_, ?_, ?_⟩ <;> simp <;> intros <;> linarith
  · simp only [h0, h1, h2, h3, if_false]
    refine ⟨by simp, ?_, ?_, ?_, ?_⟩ <;> simp <;> intros <;> linarith

/-- How dark a class is. -/
def darkness : Twilight → Nat
  | .day => 0
  | .civil => 1
  | .nautical => 2
  | .astronomical => 3
  | .dark => 4

/-- The sky does not get darker as the sun climbs. -/
theorem twilight_monotone {x y : ℝ} (h : x ≤ y) : darkness (twilight (some y)) ≤ darkness (twilight (some x)) := by
  unfold twilight gt
  simp only [decide_eq_true_eq]
  split_ifs <;> simp [darkness] <;> linarith

/-- The classes agree with the thresholds of the night searches: the sun is at or below the threshold of a
regime exactly in the classes darker than that regime. -/
theorem twilight_thresholds (x : ℝ) :
    (x ≤ Regime.horizon.threshold ↔ 1 ≤ darkness (twilight (some x))) ∧
    (x ≤ Regime.civil.threshold ↔ 2 ≤ darkness (twilight (some x))) ∧
    (x ≤ Regime.nautical.threshold ↔ 3 ≤ darkness (twilight (some x))) ∧
    (x ≤ Regime.astronomical.threshold ↔ 4 ≤ darkness (twilight (some x))) := by
  unfold twilight gt Regime.threshold
  simp only [decide_eq_true_eq]
  split_ifs <;> refine ⟨?_, ?_, ?_, ?_⟩ <;> simp [darkness] <;> linarith

/-- Not a number is classified as darkness. -/
theorem twilight_nan : twilight none = .dark := rfl

/-- Disagreement with the prose (classification.rs, lines 48-50 and 81-83: the sun exactly at 0 degrees is
day, at -6 civil, at -12 nautical, at -18 astronomical): at every boundary the class is the next darker one. -/
theorem twilight_prose_wrong :
    twilight (some 0) ≠ .day ∧ twilight (some (-6)) ≠ .civil ∧ twilight (some (-12)) ≠ .nautical ∧
    twilight (some (-18)) ≠ .astronomical := by
  refine ⟨?_, ?_, ?_, ?_⟩
  · rw [Ne, (twilight_table 0).1]; norm_num
  · rw [Ne, (twilight_table _).2.1]; norm_num
  · rw [Ne, (twilight_table _).2.2.1]; norm_num
  · rw [Ne, (twilight_table _).2.2.2.1]; norm_num

end Verif.Sky.Props
