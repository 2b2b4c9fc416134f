import Verif.Sky.Basic
import Mathlib.Geometry.Euclidean.Triangle
import Mathlib.Analysis.InnerProductSpace.PiL2
import Mathlib.Analysis.SpecialFunctions.Pow.Real
import Verif.Event.Props

/-
Properties C44, C45 and the principal phase events.
-/
namespace Verif.Sky.Props
open Verif.Sky

/-! ### C44: labels -/

/-- `from_elongation` returns the label `l` (exact arithmetic). -/
def Labelled (e hw : ℝ) (l : Label) : Prop :=
  ∃ n, ∀ fuel, n ≤ fuel → fromElongation (· - ·) (· + ·) fuel e hw = some l

theorem reduceDown_spec : ∀ (k : Nat) (e : ℝ), e < 360 * (k + 1) →
    ∃ j : ℤ, ∃ r, (∀ fuel, k + 1 ≤ fuel → reduceDown (· - ·) fuel e = some r) ∧ r = e - 360 * j ∧ r < 360 ∧
      (0 ≤ e → 0 ≤ r) ∧ (e < 0 → r = e) := by
  intro k
  induction k with
  | zero =>
    intro e he
    refine ⟨0, e, ?_, by simp, by simpa using he, fun h => h, fun _ => rfl⟩
    intro fuel hf
    obtain ⟨m, rfl⟩ : ∃ m, fuel = m + 1 := ⟨fuel - 1, by omega⟩
    rw [reduceDown, if_neg]
    simp at he; linarith
  | succ k ih =>
    intro e he
    by_cases h : 360 ≤ e
    · obtain ⟨j, r, hr, hj, hlt, h0, _⟩ := ih (e - 360) (by push_cast at he ⊢; linarith)
      refine ⟨j + 1, r, ?_, by rw [hj]; push_cast; ring, hlt, fun _ => h0 (by linarith), fun h' => by linarith⟩
      intro fuel hf
      obtain ⟨m, rfl⟩ : ∃ m, fuel = m + 1 := ⟨fuel - 1, by omega⟩
      rw [reduceDown, if_pos h]
      exact hr m (by omega)
    · refine ⟨0, e, ?_, by simp, by linarith, fun h => h, fun _ => rfl⟩
      intro fuel hf
      obtain ⟨m, rfl⟩ : ∃ m, fuel = m + 1 := ⟨fuel - 1, by omega⟩
      rw [reduceDown, if_neg h]

theorem reduceUp_spec : ∀ (k : Nat) (e : ℝ), -(360 * k : ℝ) ≤ e → e < 360 →
    ∃ j : ℤ, ∃ r, (∀ fuel, k + 1 ≤ fuel → reduceUp (· + ·) fuel e = some r) ∧ r = e - 360 * j ∧ r < 360 ∧ 0 ≤ r := by
  intro k
  induction k with
  | zero =>
    intro e he h1
    refine ⟨0, e, ?_, by simp, h1, by simpa using he⟩
    intro fuel hf
    obtain ⟨m, rfl⟩ : ∃ m, fuel = m + 1 := ⟨fuel - 1, by omega⟩
    rw [reduceUp, if_neg]
    simp at he; linarith
  | succ k ih =>
    intro e he h1
    by_cases h : e < 0
    · obtain ⟨j, r, hr, hj, hlt, h0⟩ := ih (e + 360) (by push_cast at he ⊢; linarith) (by linarith)
      refine ⟨j - 1, r, ?_, by rw [hj]; push_cast; ring, hlt, h0⟩
      intro fuel hf
      obtain ⟨m, rfl⟩ : ∃ m, fuel = m + 1 := ⟨fuel - 1, by omega⟩
      rw [reduceUp, if_pos h]
      exact hr m (by omega)
    · refine ⟨0, e, ?_, by simp, h1, by linarith⟩
      intro fuel hf
      obtain ⟨m, rfl⟩ : ∃ m, fuel = m + 1 := ⟨fuel - 1, by omega⟩
      rw [reduceUp, if_neg h]

/-- The label is that of the elongation reduced to one turn. -/
theorem labelled_reduced (e hw : ℝ) :
    ∃ j : ℤ, 0 ≤ e - 360 * j ∧ e - 360 * j < 360 ∧ Labelled e hw (labelOf (e - 360 * j) hw) := by
  obtain ⟨k, hk⟩ := exists_nat_gt (e / 360)
  obtain ⟨j, r, hr, hj, hlt, _, _⟩ := reduceDown_spec k e (by
    rw [div_lt_iff₀ (by norm_num)] at hk
    linarith)
  obtain ⟨k', hk'⟩ := exists_nat_gt (-r / 360)
  obtain ⟨j', r', hr', hj', hlt', h0'⟩ := reduceUp_spec k' r (by
    rw [div_lt_iff₀ (by norm_num)] at hk'
    linarith) hlt
  have e1 : e - 360 * ((j + j' : ℤ) : ℝ) = r' := by rw [hj', hj]; push_cast; ring
  refine ⟨j + j', by rw [e1]; exact h0', by rw [e1]; exact hlt', max (k + 1) (k' + 1), ?_⟩
  intro fuel hf
  unfold fromElongation
  rw [hr fuel (le_trans (le_max_left _ _) hf), Option.bind_some, hr' fuel (le_trans (le_max_right _ _) hf), e1]
  rfl

theorem labelled_unique {e hw : ℝ} {l l' : Label} (h : Labelled e hw l) (h' : Labelled e hw l') : l = l' := by
  obtain ⟨n, hn⟩ := h
  obtain ⟨n', hn'⟩ := h'
  have := (hn (max n n') (le_max_left _ _)).symm.trans (hn' (max n n') (le_max_right _ _))
  exact Option.some.inj this

/-- Every elongation gets exactly one label. -/
theorem label_total (e hw : ℝ) : ∃! l, Labelled e hw l := by
  obtain ⟨j, _, _, h⟩ := labelled_reduced e hw
  exact ⟨_, h, fun l hl => labelled_unique hl h⟩

/-- Lower and upper bound, in degrees, of the elongations of a label. -/
noncomputable def bounds (hw : ℝ) : Label → ℝ × ℝ
  | .newMoon => (-hw, hw)
  | .waxingCrescent => (hw, 90 - hw)
  | .firstQuarter => (90 - hw, 90 + hw)
  | .waxingGibbous => (90 + hw, 180 - hw)
  | .fullMoon => (180 - hw, 180 + hw)
  | .waningGibbous => (180 + hw, 270 - hw)
  | .lastQuarter => (270 - hw, 270 + hw)
  | .waningCrescent => (270 + hw, 360 - hw)

theorem labelOf_bounds {e hw : ℝ} (h0 : 0 ≤ hw) (h1 : hw ≤ 45) (he0 : 0 ≤ e) (he1 : e < 360) :
    ((bounds hw (labelOf e hw)).1 ≤ e ∧ e < (bounds hw (labelOf e hw)).2) ∨
    ((bounds hw (labelOf e hw)).1 ≤ e - 360 ∧ e - 360 < (bounds hw (labelOf e hw)).2) := by
  unfold labelOf
  split_ifs with a b c d f g h <;> simp only [bounds]
  · rcases a with a | a
    · left; constructor <;> linarith
    · right; constructor <;> linarith
  all_goals (push Not at a; left; constructor <;> linarith)

/-- The principal phases are the elongations within the configured half width of 0, 90, 180 and 270
degrees, the others lie between them, everything modulo full turns; windows at most 45 degrees wide on each
side. -/
theorem label_iff_partial {e hw : ℝ} (h0 : 0 ≤ hw) (h1 : hw ≤ 45) (l : Label) :
    Labelled e hw l ↔ ∃ k : ℤ, (bounds hw l).1 ≤ e - 360 * k ∧ e - 360 * k < (bounds hw l).2 := by
  have key : ∀ l', Labelled e hw l' → ∃ k : ℤ, (bounds hw l').1 ≤ e - 360 * k ∧ e - 360 * k < (bounds hw l').2 := by
    intro l' hl'
    obtain ⟨j, hj0, hj1, hl⟩ := labelled_reduced e hw
    rw [labelled_unique hl' hl]
    rcases labelOf_bounds h0 h1 hj0 hj1 with h | h
    · exact ⟨j, h⟩
    · refine ⟨j + 1, ?_, ?_⟩
      · push_cast; linarith [h.1]
      · push_cast; linarith [h.2]
  refine ⟨key l, ?_⟩
  rintro ⟨k, hk1, hk2⟩
  obtain ⟨l', hl', _⟩ := label_total e hw
  obtain ⟨k', hk1', hk2'⟩ := key l' hl'
  suffices l = l' by rw [this]; exact hl'
  -- both bounds lie in [-hw, 360 - hw), so the turns agree
  have hb : ∀ m : Label, -hw ≤ (bounds hw m).1 ∧ (bounds hw m).2 ≤ 360 - hw := by
    intro m
    cases m <;> simp only [bounds] <;> constructor <;> linarith
  have hkk : k = k' := by
    have b1 := hb l
    have b2 := hb l'
    have c1 : ((k : ℝ) - k') * 360 < 360 := by linarith
    have c2 : ((k' : ℝ) - k) * 360 < 360 := by linarith
    have d1 : ((k - k' : ℤ) : ℝ) < (1 : ℤ) := by push_cast; linarith
    have d2 : ((k' - k : ℤ) : ℝ) < (1 : ℤ) := by push_cast; linarith
    rw [Int.cast_lt] at d1 d2
    omega
  subst hkk
  generalize e - 360 * (k : ℝ) = x at *
  cases l <;> cases l' <;> simp only [bounds] at * <;> first | rfl | (exfalso; linarith)

/-- The place of a label in the lunation. -/
def rank : Label → Nat
  | .newMoon => 0
  | .waxingCrescent => 1
  | .firstQuarter => 2
  | .waxingGibbous => 3
  | .fullMoon => 4
  | .waningGibbous => 5
  | .lastQuarter => 6
  | .waningCrescent => 7

/-- Over one lunation, from the start of the new moon window, the labels advance in order. -/
theorem label_order {e e' hw : ℝ} (h0 : 0 ≤ hw) (h1 : hw ≤ 45) (he : -hw ≤ e) (hle : e ≤ e') (he' : e' < 360 - hw)
    {l l' : Label} (hl : Labelled e hw l) (hl' : Labelled e' hw l') : rank l ≤ rank l' := by
  have turn : ∀ {x : ℝ} {m : Label}, -hw ≤ x → x < 360 - hw → Labelled x hw m → (bounds hw m).1 ≤ x ∧ x < (bounds hw m).2 := by
    intro x m hx1 hx2 hm
    obtain ⟨k, hk1, hk2⟩ := (label_iff_partial h0 h1 m).mp hm
    have hb : -hw ≤ (bounds hw m).1 ∧ (bounds hw m).2 ≤ 360 - hw := by
      cases m <;> simp only [bounds] <;> constructor <;> linarith
    have d1 : ((k : ℤ) : ℝ) < (1 : ℤ) := by push_cast; linarith
    have d2 : ((-1 : ℤ) : ℝ) < (k : ℤ) := by push_cast; linarith
    rw [Int.cast_lt] at d1 d2
    have : k = 0 := by omega
    subst this
    simp only [Int.cast_zero, mul_zero, sub_zero] at hk1 hk2
    exact ⟨hk1, hk2⟩
  have t1 := turn he (by linarith) hl
  have t2 := turn (by linarith) he' hl'
  cases l <;> cases l' <;> simp only [bounds, rank] at * <;> first | omega | (exfalso; linarith)

/-- Waxing labels lie in the first half of the lunation, waning ones in the second. -/
theorem label_waxing {e hw : ℝ} (h0 : 0 ≤ hw) (h1 : hw ≤ 45) (he0 : 0 ≤ e) (he1 : e < 360) {l : Label}
    (hl : Labelled e hw l) :
    (l.isWaxing = true ↔ hw ≤ e ∧ e < 180 - hw) ∧ (l.isWaning = true ↔ 180 + hw ≤ e ∧ e < 360 - hw) := by
  obtain ⟨k, hk1, hk2⟩ := (label_iff_partial h0 h1 l).mp hl
  have hk : k = 0 ∨ k = 1 := by
    have hb : -hw ≤ (bounds hw l).1 ∧ (bounds hw l).2 ≤ 360 - hw := by
      cases l <;> simp only [bounds] <;> constructor <;> linarith
    have d1 : ((k : ℤ) : ℝ) < (2 : ℤ) := by push_cast; linarith
    have d2 : ((-1 : ℤ) : ℝ) < (k : ℤ) := by push_cast; linarith
    rw [Int.cast_lt] at d1 d2
    omega
  rcases hk with rfl | rfl <;> cases l <;> simp only [bounds, Int.cast_zero, Int.cast_one, mul_zero, mul_one, sub_zero] at hk1 hk2 <;>
    constructor <;> simp only [Label.isWaxing, Label.isWaning, Bool.false_eq_true, false_iff, true_iff, not_and, not_lt] <;>
    first | (constructor <;> linarith) | (intros; linarith)

/-- The representative elongation of a label has that label. -/
theorem label_centre {hw : ℝ} (h0 : 0 < hw) (h1 : hw < 45) (l : Label) : Labelled l.centre hw l := by
  rw [label_iff_partial h0.le h1.le]
  refine ⟨0, ?_, ?_⟩ <;> cases l <;> simp only [bounds, Label.centre, Int.cast_zero, mul_zero, sub_zero] <;> linarith

/-- With windows wider than 45 degrees the windows overlap and the new moon takes precedence: with 95 degrees
an elongation of 91 degrees, next to the first quarter, is a new moon. -/
theorem wide_window : Labelled 91 95 .newMoon := by
  refine ⟨1, fun fuel hf => ?_⟩
  obtain ⟨m, rfl⟩ : ∃ m, fuel = m + 1 := ⟨fuel - 1, by omega⟩
  norm_num [fromElongation, reduceDown, reduceUp, labelOf]

/-! ### Large elongations -/

/-- The finite binary floating point numbers with 53 bits. -/
def IsFloat (x : ℝ) : Prop := ∃ (m k : ℤ), |m| < 2 ^ 53 ∧ x = m * (2 : ℝ) ^ k

/-- `y` is a correctly rounded (to nearest) value of the real number `x`. -/
def RoundsTo (x y : ℝ) : Prop := IsFloat y ∧ ∀ z, IsFloat z → |y - x| ≤ |z - x|

/-- A 53-bit number close below 2^70 is 2^70. -/
theorem float_near {y : ℝ} (hy : IsFloat y) (h1 : (2 : ℝ) ^ 70 - 720 ≤ y) (h2 : y ≤ (2 : ℝ) ^ 70) : y = (2 : ℝ) ^ 70 := by
  obtain ⟨m, k, hm, rfl⟩ := hy
  have hk : 17 ≤ k := by
    by_contra hk
    push Not at hk
    have hk' : k ≤ 16 := by omega
    have p1 : (2 : ℝ) ^ k ≤ (2 : ℝ) ^ (16 : ℤ) := zpow_le_zpow_right₀ (by norm_num) hk'
    have p0 : (0 : ℝ) < (2 : ℝ) ^ k := by positivity
    have hm' : (m : ℝ) < 2 ^ 53 := by
      have : m < 2 ^ 53 := lt_of_le_of_lt (le_abs_self m) hm
      exact_mod_cast this
    have : (m : ℝ) * 2 ^ k ≤ 2 ^ 53 * (2 : ℝ) ^ (16 : ℤ) := by
      calc (m : ℝ) * 2 ^ k ≤ 2 ^ 53 * 2 ^ k := mul_le_mul_of_nonneg_right hm'.le p0.le
        _ ≤ _ := mul_le_mul_of_nonneg_left p1 (by norm_num)
    norm_num at this h1
    linarith
  obtain ⟨j, rfl⟩ : ∃ j : ℕ, k = 17 + j := ⟨(k - 17).toNat, by omega⟩
  have e : (m : ℝ) * (2 : ℝ) ^ (17 + (j : ℤ)) = ((m * 2 ^ j : ℤ) : ℝ) * 2 ^ 17 := by
    rw [zpow_add₀ (by norm_num), zpow_natCast]
    push_cast
    norm_num
    ring
  rw [e] at h1 h2 ⊢
  generalize m * 2 ^ j = n at h1 h2 ⊢
  have n1 : n ≤ 2 ^ 53 := by
    have : (n : ℝ) ≤ 2 ^ 53 := by norm_num at h2 ⊢; linarith
    exact_mod_cast this
  have n2 : 2 ^ 53 - 1 < n := by
    have : ((2 ^ 53 - 1 : ℤ) : ℝ) < n := by push_cast; norm_num at h1 ⊢; linarith
    exact_mod_cast this
  have : n = 2 ^ 53 := by omega
  rw [this]
  norm_num

theorem float_big : IsFloat ((2 : ℝ) ^ 70) := ⟨1, 70, by norm_num, by norm_num⟩

/-- 2^70 less a full turn rounds to 2^70. -/
theorem rounds_big (y : ℝ) : RoundsTo ((2 : ℝ) ^ 70 - 360) y ↔ y = (2 : ℝ) ^ 70 := by
  have h360 : |(2 : ℝ) ^ 70 - ((2 : ℝ) ^ 70 - 360)| = 360 := by norm_num
  constructor
  · rintro ⟨hy, hn⟩
    have hn := hn _ float_big
    rw [h360, abs_le] at hn
    exact float_near hy (by linarith [hn.1]) (by linarith [hn.2])
  · rintro rfl
    refine ⟨float_big, fun z hz => ?_⟩
    rw [h360]
    by_contra hlt
    push Not at hlt
    have hlt' := abs_lt.mp hlt
    have := float_near hz (by linarith [hlt'.1]) (by linarith [hlt'.2])
    rw [this, h360] at hlt
    linarith

/-- Disagreement: in floating point, whatever the rounding of ties, the reduction of a large elongation never
ends, because subtracting a full turn does not change the number. -/
theorem large_elongation_never_finishes {sub : ℝ → ℝ → ℝ} (h : RoundsTo ((2 : ℝ) ^ 70 - 360) (sub (2 ^ 70) 360))
    (add : ℝ → ℝ → ℝ) (hw : ℝ) (fuel : Nat) : fromElongation sub add fuel (2 ^ 70) hw = none := by
  have hfix := (rounds_big _).mp h
  have hdown : ∀ n, reduceDown sub n ((2 : ℝ) ^ 70) = none := by
    intro n
    induction n with
    | zero => rfl
    | succ n ih =>
      rw [reduceDown, if_pos (by norm_num), hfix]
      exact ih
  unfold fromElongation
  rw [hdown]
  rfl

end Verif.Sky.Props
