import Verif.Passband.Curve

/-! # Areas under curves through samples -/

namespace Verif.Passband
open Set intervalIntegral

/-- Area under the chords. -/
def area : List (ℚ × ℚ) → ℚ
  | p :: q :: t => (p.2 + q.2) / 2 * (q.1 - p.1) + area (q :: t)
  | _ => 0

/-- First moment under the chords. -/
def moment : List (ℚ × ℚ) → ℚ
  | p :: q :: t =>
    (q.1 - p.1) * (2 * p.1 * p.2 + p.1 * q.2 + q.1 * p.2 + 2 * q.1 * q.2) / 6 + moment (q :: t)
  | _ => 0

theorem affine_integral (a b c m : ℝ) : ∫ x in a..b, (c + m * x) = c * (b - a) + m * (b ^ 2 - a ^ 2) / 2 := by
  have h : Continuous fun x : ℝ => m * x := by fun_prop
  rw [integral_add (by simp) (h.intervalIntegrable _ _), integral_const_mul]
  simp
  ring

theorem affine_moment (a b c m : ℝ) :
    ∫ x in a..b, x * (c + m * x) = c * (b ^ 2 - a ^ 2) / 2 + m * (b ^ 3 - a ^ 3) / 3 := by
  have e : (fun x : ℝ => x * (c + m * x)) = fun x => c * x + m * x ^ 2 := by funext x; ring
  have h1 : Continuous fun x : ℝ => c * x := by fun_prop
  have h2 : Continuous fun x : ℝ => m * x ^ 2 := by fun_prop
  rw [e, integral_add (h1.intervalIntegrable _ _) (h2.intervalIntegrable _ _), integral_const_mul, integral_const_mul]
  simp
  ring

theorem seg_eq {a b ya yb : ℝ} (h : a < b) (x : ℝ) :
    ya + (x - a) / (b - a) * (yb - ya) = (ya - a * ((yb - ya) / (b - a))) + (yb - ya) / (b - a) * x := by
  have hd : b - a ≠ 0 := sub_ne_zero.2 h.ne'
  field_simp
  ring

theorem seg_area {a b ya yb : ℝ} (h : a < b) :
    ∫ x in a..b, (ya + (x - a) / (b - a) * (yb - ya)) = (ya + yb) / 2 * (b - a) := by
  have hd : b - a ≠ 0 := sub_ne_zero.2 h.ne'
  simp_rw [seg_eq h]
  rw [affine_integral]
  field_simp
  ring

theorem seg_moment {a b ya yb : ℝ} (h : a < b) :
    ∫ x in a..b, x * (ya + (x - a) / (b - a) * (yb - ya)) =
      (b - a) * (2 * a * ya + a * yb + b * ya + 2 * b * yb) / 6 := by
  have hd : b - a ≠ 0 := sub_ne_zero.2 h.ne'
  simp_rw [seg_eq h]
  rw [affine_moment]
  field_simp
  ring

theorem line_area (t : List (ℚ × ℚ)) (p q : ℚ × ℚ) (h : Inc (p :: t)) (hq : (p :: t).getLast? = some q) :
    ∫ x in (p.1 : ℝ)..q.1, line (p :: t) x = area (p :: t) := by
  induction t generalizing p with
  | nil => simp at hq; subst hq; simp [area]
  | cons c t ih =>
    have hc := line_continuous _ h
    rw [← integral_add_adjacent_intervals (b := (c.1 : ℝ)) (hc.intervalIntegrable _ _) (hc.intervalIntegrable _ _)]
    have h1 : ∫ x in (p.1 : ℝ)..c.1, line (p :: c :: t) x = ((p.2 : ℝ) + c.2) / 2 * (c.1 - p.1) := by
      rw [← seg_area (inc_head h)]
      apply integral_congr
      intro x hx
      rw [uIcc_of_le (inc_head h).le] at hx
      exact line_seg _ _ _ hx.2
    rw [List.getLast?_cons_cons] at hq
    have h2 : ∫ x in (c.1 : ℝ)..q.1, line (p :: c :: t) x = area (c :: t) := by
      rw [← ih c (inc_tail h) hq]
      apply integral_congr
      intro x hx
      rw [uIcc_of_le (inc_last (inc_tail h) hq)] at hx
      exact line_skip _ _ _ h hx.1
    rw [h1, h2, area]
    push_cast
    ring

theorem line_moment (t : List (ℚ × ℚ)) (p q : ℚ × ℚ) (h : Inc (p :: t)) (hq : (p :: t).getLast? = some q) :
    ∫ x in (p.1 : ℝ)..q.1, x * line (p :: t) x = moment (p :: t) := by
  induction t generalizing p with
  | nil => simp at hq; subst hq; simp [moment]
  | cons c t ih =>
    have hc : Continuous fun x : ℝ => x * line (p :: c :: t) x := continuous_id.mul (line_continuous _ h)
    rw [← integral_add_adjacent_intervals (b := (c.1 : ℝ)) (hc.intervalIntegrable _ _) (hc.intervalIntegrable _ _)]
    have h1 : ∫ x in (p.1 : ℝ)..c.1, x * line (p :: c :: t) x =
        ((c.1 : ℝ) - p.1) * (2 * p.1 * p.2 + p.1 * c.2 + c.1 * p.2 + 2 * c.1 * c.2) / 6 := by
      rw [← seg_moment (inc_head h)]
      apply integral_congr
      intro x hx
      rw [uIcc_of_le (inc_head h).le] at hx
      exact congrArg (x * ·) (line_seg _ _ _ hx.2)
    rw [List.getLast?_cons_cons] at hq
    have h2 : ∫ x in (c.1 : ℝ)..q.1, x * line (p :: c :: t) x = moment (c :: t) := by
      rw [← ih c (inc_tail h) hq]
      apply integral_congr
      intro x hx
      rw [uIcc_of_le (inc_last (inc_tail h) hq)] at hx
      exact congrArg (x * ·) (line_skip _ _ _ h hx.1)
    rw [h1, h2, moment]
    push_cast
    ring

end Verif.Passband
