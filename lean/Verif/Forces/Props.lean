import Verif.Forces.Air

/-!
# Spacecraft properties and the step rule
-/

namespace Verif.Forces

/-- **C123**: a spacecraft is accepted exactly if all values are finite, the mass positive and the others not negative; it
then holds the values given and their ratios. -/
theorem spacecraft_accepted (mass da cd sa cr : Option ℝ) :
    (∀ s, tryNew mass da cd sa cr = .ok s ↔
      mass = some s.mass ∧ da = some s.dragArea ∧ cd = some s.cd ∧ sa = some s.srpArea ∧ cr = some s.cr ∧
      0 < s.mass ∧ 0 ≤ s.dragArea ∧ 0 ≤ s.cd ∧ 0 ≤ s.srpArea ∧ 0 ≤ s.cr ∧
      s.amDrag * s.mass = s.dragArea ∧ s.amSrp * s.mass = s.srpArea) := by
  intro s
  constructor
  · intro h
    unfold tryNew at h
    repeat' split at h
    all_goals first
      | cases h
      | skip
    all_goals
      simp_all
      constructor <;> field_simp
  · rintro ⟨rfl, rfl, rfl, rfl, rfl, hm, h1, h2, h3, h4, h5, h6⟩
    obtain ⟨m, a, c, b, r, x, y⟩ := s
    dsimp only at *
    unfold tryNew
    simp only [if_neg (not_le.mpr hm), if_neg (not_lt.mpr h1), if_neg (not_lt.mpr h2), if_neg (not_lt.mpr h3),
      if_neg (not_lt.mpr h4)]
    rw [← h5, ← h6, mul_div_cancel_right₀ _ hm.ne', mul_div_cancel_right₀ _ hm.ne']

/-- **C123**: a rejection names a value that is not finite or out of range. -/
theorem spacecraft_rejected {mass da cd sa cr : Option ℝ} {field : String} (h : tryNew mass da cd sa cr = .error field) :
    (field = "mass" ∧ ∀ m, mass = some m → m ≤ 0) ∨ (field = "drag_area" ∧ ∀ x, da = some x → x < 0) ∨
    (field = "srp_area" ∧ ∀ x, sa = some x → x < 0) ∨ (field = "cd" ∧ ∀ x, cd = some x → x < 0) ∨
    (field = "cr" ∧ ∀ x, cr = some x → x < 0) := by
  unfold tryNew at h
  repeat' split at h
  all_goals first
    | (cases h; done)
    | (obtain rfl := Except.error.inj h; simp_all)

/-- A tonne with two panels. -/
example : ∃ s, tryNew (some 1000) (some 10) (some 2.2) (some 12) (some 1.3) = .ok s ∧ s.amDrag = 1 / 100 :=
  ⟨⟨1000, 10, 2.2, 12, 1.3, 1 / 100, 12 / 1000⟩, (spacecraft_accepted _ _ _ _ _ _).mpr (by norm_num), rfl⟩

/-- **C123**: the adapter goes in the direction asked for, never further than asked and never further than its own step
size; it goes the whole way asked if that is shorter than its step, and the whole step otherwise. -/
theorem adapter_step {S : Type} {rk4 : S → ℝ → Except Err S} {step ht : ℝ} {s s' : S} {h next : ℝ}
    (hr : rk4Adapter rk4 (some step) s (some ht) = .ok (s', h, next)) :
    rk4 s h = .ok s' ∧ |h| = min |ht| |step| ∧ 0 ≤ h * ht ∧ next = h := by
  unfold rk4Adapter at hr
  simp only at hr
  split_ifs at hr with h0 hlt
  · split at hr
    · cases hr
    · next heq =>
      obtain ⟨rfl, rfl, rfl⟩ : _ ∧ _ ∧ _ := by simpa using hr
      exact ⟨heq, (min_eq_left hlt.le).symm, mul_self_nonneg _, rfl⟩
  · split at hr
    · cases hr
    · next heq =>
      obtain ⟨rfl, rfl, rfl⟩ : _ ∧ _ ∧ _ := by simpa using hr
      refine ⟨heq, ?_, ?_, rfl⟩
      · rw [min_eq_right (not_lt.mp hlt), abs_mul, abs_abs]
        unfold signum
        split_ifs <;> simp
      · unfold signum
        split_ifs with hs
        · rw [one_mul]; exact mul_nonneg (abs_nonneg _) hs
        · have := mul_nonneg (abs_nonneg step) (neg_nonneg.mpr (not_le.mp hs).le)
          linarith

/-- **C123**: the adapter refuses exactly a request or step size that is not finite, a step size of zero and what the
integrator refuses. -/
theorem adapter_errors {S : Type} (rk4 : S → ℝ → Except Err S) (step ht : Option ℝ) (s : S) :
    (∃ r, rk4Adapter rk4 step s ht = .ok r) ↔
      ∃ t st, ht = some t ∧ step = some st ∧ st ≠ 0 ∧ ∃ h s', |h| = min |t| |st| ∧ 0 ≤ h * t ∧ rk4 s h = .ok s' := by
  constructor
  · rintro ⟨⟨s', h, next⟩, hr⟩
    rcases ht with _ | t
    · simp [rk4Adapter] at hr
    rcases step with _ | st
    · simp [rk4Adapter] at hr
    have h0 : st ≠ 0 := by
      rintro rfl
      simp [rk4Adapter] at hr
    obtain ⟨h1, h2, h3, -⟩ := adapter_step hr
    exact ⟨t, st, rfl, rfl, h0, h, s', h2, h3, h1⟩
  · rintro ⟨t, st, rfl, rfl, h0, h, s', h2, h3, h1⟩
    have e : (if |t| < |st| then t else signum t * |st|) = h := by
      have hsgn : t = 0 → h = 0 := by
        rintro rfl
        rw [abs_zero, min_eq_left (abs_nonneg _)] at h2
        exact abs_eq_zero.mp h2
      rcases lt_trichotomy t 0 with ht | ht | ht
      · have hh : h ≤ 0 := by
          by_contra hc
          push Not at hc
          have := mul_neg_of_pos_of_neg hc ht
          linarith
        rw [abs_of_nonpos hh] at h2
        split_ifs with hl
        · rw [min_eq_left hl.le, abs_of_neg ht] at h2; linarith
        · rw [min_eq_right (not_lt.mp hl)] at h2
          unfold signum
          rw [if_neg (not_le.mpr ht)]; linarith
      · rw [hsgn ht, ht, abs_zero, if_pos (abs_pos.mpr h0)]
      · have hh : 0 ≤ h := by
          by_contra hc
          push Not at hc
          have := mul_neg_of_neg_of_pos hc ht
          linarith
        rw [abs_of_nonneg hh] at h2
        split_ifs with hl
        · rw [min_eq_left hl.le, abs_of_pos ht] at h2; linarith
        · rw [min_eq_right (not_lt.mp hl)] at h2
          unfold signum
          rw [if_pos ht.le]; linarith
    refine ⟨(s', h, h), ?_⟩
    unfold rk4Adapter
    simp only [if_neg (abs_ne_zero.mpr h0), e, h1]

/-- Backwards over more than the step. -/
example : rk4Adapter (S := ℝ) (fun s h => .ok (s + h)) (some 30) 100 (some (-45)) = .ok (70, -30, -30) := by
  norm_num [rk4Adapter, signum]

end Verif.Forces
