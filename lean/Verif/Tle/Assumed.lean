import Verif.Tle.Round
import Mathlib.Algebra.Order.Field.Power

namespace Verif.Tle
open Verif.Text

/-- Decimal exponent written for `v`. -/
def assumedExp (v : ℚ) : ℤ := Int.log 10 |v| + 1
/-- Mantissa digits written for `v`. -/
def assumedDigits (v : ℚ) : Nat := roundHalfUp (|v| / (10 : ℚ) ^ assumedExp v * 10 ^ 5)

theorem assumedExp_spec {v : ℚ} (hv : v ≠ 0) :
    (10 : ℚ) ^ (assumedExp v - 1) ≤ |v| ∧ |v| < (10 : ℚ) ^ assumedExp v := by
  have hp : 0 < |v| := abs_pos.mpr hv
  constructor
  · have := Int.zpow_log_le_self (R := ℚ) (b := 10) (by norm_num) hp
    unfold assumedExp
    rw [add_sub_cancel_right]
    exact_mod_cast this
  · have := Int.lt_zpow_succ_log_self (R := ℚ) (b := 10) (by norm_num) |v|
    unfold assumedExp
    exact_mod_cast this

theorem assumedExp_unique {v : ℚ} {e : ℤ} (h1 : (10 : ℚ) ^ (e - 1) ≤ |v|) (h2 : |v| < (10 : ℚ) ^ e) :
    assumedExp v = e := by
  have hv : v ≠ 0 := by
    rintro rfl
    rw [abs_zero] at h1
    exact absurd h1 (not_le.mpr (by positivity))
  obtain ⟨h3, h4⟩ := assumedExp_spec hv
  have a : e - 1 < assumedExp v := (zpow_lt_zpow_iff_right₀ (by norm_num : (1 : ℚ) < 10)).mp (lt_of_le_of_lt h1 h4)
  have b : assumedExp v - 1 < e := (zpow_lt_zpow_iff_right₀ (by norm_num : (1 : ℚ) < 10)).mp (lt_of_le_of_lt h3 h2)
  omega

theorem mantissa_bounds {v : ℚ} (hv : v ≠ 0) :
    10 ^ 4 ≤ |v| / (10 : ℚ) ^ assumedExp v * 10 ^ 5 ∧ |v| / (10 : ℚ) ^ assumedExp v * 10 ^ 5 < 10 ^ 5 := by
  obtain ⟨h1, h2⟩ := assumedExp_spec hv
  have hp : (0 : ℚ) < 10 ^ assumedExp v := by positivity
  rw [zpow_sub_one₀ (by norm_num)] at h1
  constructor
  · have : (10 : ℚ)⁻¹ ≤ |v| / (10 : ℚ) ^ assumedExp v := by
      rw [le_div_iff₀ hp]; linarith
    calc (10 : ℚ) ^ 4 = 10⁻¹ * 10 ^ 5 := by norm_num
      _ ≤ _ := by gcongr
  · have : |v| / (10 : ℚ) ^ assumedExp v < 1 := by rw [div_lt_one hp]; exact h2
    linarith

theorem floor_bounds {x : ℚ} {a b : ℕ} (h1 : (a : ℚ) ≤ x) (h2 : x < (b : ℚ)) :
    a ≤ roundHalfUp x ∧ roundHalfUp x ≤ b := by
  unfold roundHalfUp
  have e1 : (a : ℤ) ≤ ⌊x + 1 / 2⌋ := Int.le_floor.mpr (by push_cast; linarith)
  have e2 : ⌊x + 1 / 2⌋ < (b : ℤ) + 1 := Int.floor_lt.mpr (by push_cast; linarith)
  omega

theorem assumedDigits_bounds {v : ℚ} (hv : v ≠ 0) :
    10000 ≤ assumedDigits v ∧ assumedDigits v ≤ 100000 := by
  obtain ⟨h1, h2⟩ := mantissa_bounds hv
  exact floor_bounds (by push_cast; linarith) (by push_cast; linarith)

theorem formatAssumed_eq {v : ℚ} (hv : v ≠ 0) :
    formatAssumed v = (if v < 0 then '-' else ' ') :: padLeft '0' 5 (natStr (assumedDigits v)) ++
      (if assumedExp v < 0 then '-' else '+') :: natStr (assumedExp v).natAbs := by
  have hb := assumedDigits_bounds hv
  unfold formatAssumed
  rw [if_neg hv]
  have : ¬ 1000000 ≤ roundHalfUp (|v| / (10 : ℚ) ^ (Int.log 10 |v| + 1) * 10 ^ 5) := by
    have h' : roundHalfUp (|v| / (10 : ℚ) ^ (Int.log 10 |v| + 1) * 10 ^ 5) = assumedDigits v := rfl
    omega
  simp only [this, if_false]
  rfl

theorem fits_iff {v : ℚ} (hv : v ≠ 0) : Spec.AssumedFits v ↔
    -9 ≤ assumedExp v ∧ assumedExp v ≤ 9 ∧ assumedDigits v < 100000 := by
  have key : ∀ e : ℤ, assumedExp v = e → (assumedDigits v < 100000 ↔
      |v| < (10 : ℚ) ^ e - (10 : ℚ) ^ (e - 5) / 2) := by
    intro e he
    unfold assumedDigits roundHalfUp
    rw [he]
    have hp : (0 : ℚ) < 10 ^ e := by positivity
    have hx : 0 ≤ ⌊|v| / (10 : ℚ) ^ e * 10 ^ 5 + 1 / 2⌋ := Int.floor_nonneg.mpr (by positivity)
    rw [Int.toNat_lt hx, Int.floor_lt]
    have e5 : (10 : ℚ) ^ (e - 5) = 10 ^ e / 10 ^ 5 := by
      rw [zpow_sub₀ (by norm_num)]; norm_cast
    rw [e5]
    have : |v| / (10 : ℚ) ^ e * 10 ^ 5 + 1 / 2 < 100000 ↔ |v| < 10 ^ e - 10 ^ e / 10 ^ 5 / 2 := by
      rw [← sub_pos, ← sub_pos (a := (10 : ℚ) ^ e - _)]
      have e1 : (10 : ℚ) ^ e - 10 ^ e / 10 ^ 5 / 2 - |v| =
        (100000 - (|v| / (10 : ℚ) ^ e * 10 ^ 5 + 1 / 2)) * (10 ^ e / 10 ^ 5) := by
        field_simp; ring
      rw [e1]
      exact (mul_pos_iff_of_pos_right (by positivity)).symm
    push_cast
    exact this
  constructor
  · rintro (h | ⟨e, h1, h2, h3, h4⟩)
    · exact absurd h hv
    · have he := assumedExp_unique h3 (lt_of_lt_of_le h4 (by
        have : (0 : ℚ) < 10 ^ (e - 5) := by positivity
        linarith))
      exact ⟨by omega, by omega, (key e he).mpr h4⟩
  · rintro ⟨h1, h2, h3⟩
    exact Or.inr ⟨assumedExp v, h1, h2, (assumedExp_spec hv).1, (key _ rfl).mp h3⟩

theorem natStr_length_one {n : Nat} : (natStr n).length = 1 ↔ n < 10 := by
  constructor
  · intro h
    by_contra hc
    have := natStr_length_gt 1 n (by omega)
    omega
  · intro h
    have := natStr_length_le 0 n (by simpa using h)
    have := List.length_pos_of_ne_nil (natStr_digits n).2.1
    omega

theorem formatAssumed_length (v : ℚ) : (formatAssumed v).length = 8 ↔ Spec.AssumedFits v := by
  by_cases hv : v = 0
  · subst hv
    constructor
    · intro _; exact Or.inl rfl
    · intro _; decide
  · rw [fits_iff hv, formatAssumed_eq hv]
    have hb := assumedDigits_bounds hv
    have hl1 : (natStr (assumedDigits v)).length = if assumedDigits v < 100000 then 5 else 6 := by
      split
      · rename_i h
        have := natStr_length_le 4 _ (by norm_num; exact h : assumedDigits v < 10 ^ (4 + 1))
        have := natStr_length_gt 4 (assumedDigits v) (by norm_num; omega)
        omega
      · have := natStr_length_le 5 (assumedDigits v) (by norm_num; omega)
        have := natStr_length_gt 5 (assumedDigits v) (by norm_num; omega)
        omega
    have hl2 := natStr_length_one (n := (assumedExp v).natAbs)
    have hl3 := List.length_pos_of_ne_nil (natStr_digits (assumedExp v).natAbs).2.1
    simp only [List.length_append, List.length_cons, padLeft_length, hl1]
    constructor
    · intro h
      split at h
      · have : (natStr (assumedExp v).natAbs).length = 1 := by
          have : max 5 5 = 5 := rfl
          omega
        have := hl2.mp this
        omega
      · have : max 5 6 = 6 := rfl
        omega
    · rintro ⟨h1, h2, h3⟩
      rw [if_pos h3, hl2.mpr (by omega)]; rfl

/-- The value printed by `format_assumed_decimal_exponent` when it fits. -/
def assumedValue (v : ℚ) : ℚ :=
  if v = 0 then 0
  else (if v < 0 then -1 else 1) * (assumedDigits v : ℚ) * (10 : ℚ) ^ (assumedExp v - 5)

theorem parse_formatAssumed {v : ℚ} (h : Spec.AssumedFits v) :
    parseAssumed (formatAssumed v) = .ok (assumedValue v) := by
  by_cases hv : v = 0
  · subst hv
    have := parseAssumed_shape (neg := false) (m := "00000".toList) (e := "0".toList) (c := '-')
      (by decide) (by decide) (by decide) (Or.inl rfl) (by decide) (by decide) (by decide)
    have h0 : formatAssumed 0 = ' ' :: "00000".toList ++ '-' :: "0".toList := by
      unfold formatAssumed; rw [if_pos rfl]; decide
    rw [h0]
    simp only [Bool.false_eq_true, if_false] at this
    rw [this]
    unfold assumedValue
    rw [if_pos rfl]
    have hd : digitsVal "00000".toList = 0 := by decide
    rw [hd]
    simp
  · obtain ⟨h1, h2, h3⟩ := (fits_iff hv).mp h
    rw [formatAssumed_eq hv]
    obtain ⟨p1, p2, p3⟩ := padZero_digits 5 (assumedDigits v)
    obtain ⟨q1, q2, q3⟩ := natStr_digits (assumedExp v).natAbs
    have hlen : (padLeft '0' 5 (natStr (assumedDigits v))).length = 5 := by
      have := natStr_length_le 4 _ (by norm_num; exact h3 : assumedDigits v < 10 ^ (4 + 1))
      rw [padLeft_length]; omega
    have := parseAssumed_shape (neg := decide (v < 0)) (m := padLeft '0' 5 (natStr (assumedDigits v)))
      (e := natStr (assumedExp v).natAbs) (c := if assumedExp v < 0 then '-' else '+') p1 p2
      (by rw [p3]; unfold u64Max; omega) (by split <;> simp) q1 q2 (by rw [q3]; unfold i32Max; omega)
    simp only [decide_eq_true_eq] at this
    rw [this, p3, q3, hlen]
    unfold assumedValue
    rw [if_neg hv]
    have hexp : (if (if assumedExp v < 0 then '-' else '+') = '-' then -((assumedExp v).natAbs : ℤ)
        else ((assumedExp v).natAbs : ℤ)) = assumedExp v := by
      by_cases hn : assumedExp v < 0
      · simp only [hn, if_true]; omega
      · simp only [hn, if_false]
        rw [if_neg (by decide)]; omega
    rw [hexp]
    congr 1
    have : (10 : ℚ) ^ (assumedExp v - 5) = 10 ^ (-(5 : ℤ)) * 10 ^ assumedExp v := by
      rw [← zpow_add₀ (by norm_num)]; congr 1; ring
    rw [this]
    push_cast
    ring

theorem assumedValue_spec (v : ℚ) : Spec.FiveDigits v (assumedValue v) := by
  unfold assumedValue
  by_cases hv : v = 0
  · rw [if_pos hv]; exact Or.inl ⟨hv, rfl⟩
  · rw [if_neg hv]
    right
    obtain ⟨h1, h2⟩ := assumedExp_spec hv
    refine ⟨assumedExp v, h1, h2, ?_, ?_⟩
    · refine ⟨(if v < 0 then -1 else 1) * (assumedDigits v : ℤ), ?_⟩
      push_cast
      split <;> simp
    · have hr := roundHalfUp_spec (|v| / (10 : ℚ) ^ assumedExp v * 10 ^ 5) (by positivity)
      change |(assumedDigits v : ℚ) - _| ≤ _ at hr
      generalize (assumedDigits v : ℚ) = k at *
      have hp : (0 : ℚ) < 10 ^ (assumedExp v - 5) := by positivity
      have he : |v| / (10 : ℚ) ^ assumedExp v * 10 ^ 5 * 10 ^ (assumedExp v - 5) = |v| := by
        rw [zpow_sub₀ (by norm_num)]
        have : (10 : ℚ) ^ (5 : ℤ) = 10 ^ 5 := by norm_cast
        rw [this]
        field_simp
      have hk : |k * 10 ^ (assumedExp v - 5) - (|v|)| ≤ 10 ^ (assumedExp v - 5) / 2 := by
        rw [← he]
        rw [show |v| / (10 : ℚ) ^ assumedExp v * 10 ^ 5 * 10 ^ (assumedExp v - 5) =
          (|v| / (10 : ℚ) ^ assumedExp v * 10 ^ 5) * 10 ^ (assumedExp v - 5) from rfl, ← sub_mul,
          abs_mul, abs_of_pos hp]
        calc _ ≤ 1 / 2 * (10 : ℚ) ^ (assumedExp v - 5) := by gcongr
          _ = _ := by ring
      split
      · rename_i hn
        rw [abs_of_neg hn] at hk
        rw [← abs_neg]
        convert hk using 2
        ring
      · rename_i hn
        rw [abs_of_nonneg (not_lt.mp hn)] at hk
        convert hk using 2
        ring

theorem formatAssumed_ascii (v : ℚ) : isAscii (formatAssumed v) := by
  by_cases hv : v = 0
  · subst hv
    unfold formatAssumed; rw [if_pos rfl]
    intro c hc
    revert c
    decide
  · rw [formatAssumed_eq hv, List.cons_append, isAscii_cons, isAscii_append, isAscii_cons]
    exact ⟨by split <;> decide, padZero_ascii _ _, by split <;> decide, natStr_ascii _⟩

end Verif.Tle
