import Mathlib.Tactic.FieldSimp
import Mathlib.Tactic.LinearCombination
import Mathlib.Tactic.Positivity
import Mathlib.Tactic.FinCases
import Verif.Ck.Model

/-
Property C42: attitude interpolation.
-/
namespace Verif.Ck.Props

/-- The rotation matrix of a quaternion. -/
def rotMat (q : Q) : Fin 3 → Fin 3 → ℝ :=
  ![![q 0 ^ 2 + q 1 ^ 2 - q 2 ^ 2 - q 3 ^ 2, 2 * (q 1 * q 2 - q 0 * q 3), 2 * (q 1 * q 3 + q 0 * q 2)],
    ![2 * (q 1 * q 2 + q 0 * q 3), q 0 ^ 2 - q 1 ^ 2 + q 2 ^ 2 - q 3 ^ 2, 2 * (q 2 * q 3 - q 0 * q 1)],
    ![2 * (q 1 * q 3 - q 0 * q 2), 2 * (q 2 * q 3 + q 0 * q 1), q 0 ^ 2 - q 1 ^ 2 - q 2 ^ 2 + q 3 ^ 2]]

/-- Squared length. -/
def len2 (q : Q) : ℝ := q 0 ^ 2 + q 1 ^ 2 + q 2 ^ 2 + q 3 ^ 2

/-- A quaternion the normalisation can handle. -/
def Usable (q : Q) : Prop := epsilon < Real.sqrt (len2 q)

def neg (q : Q) : Q := fun i => -q i

theorem rotMat_neg (q : Q) : rotMat (neg q) = rotMat q := by
  ext i j
  fin_cases i <;> fin_cases j <;> simp [rotMat, neg]

theorem epsilon_pos : 0 < epsilon := by unfold epsilon; positivity

theorem epsilon_lt : epsilon < 1 / 2 := by
  unfold epsilon
  norm_num

theorem dot_self (q : Q) : dot q q = len2 q := by unfold dot len2; ring

theorem len2_nonneg (q : Q) : 0 ≤ len2 q := by unfold len2; positivity

/-- Normalising scales by a positive number. -/
theorem normalize_scale (q : Q) : ∃ c > 0, normalize q = fun i => c * q i := by
  unfold normalize
  dsimp only
  split
  · exact ⟨1, one_pos, by simp⟩
  · rename_i h
    have h0 : 0 < Real.sqrt (dot q q) := lt_trans epsilon_pos (not_le.mp h)
    refine ⟨(Real.sqrt (dot q q))⁻¹, inv_pos.mpr h0, ?_⟩
    funext i
    field_simp

theorem normalize_unit {q : Q} (h : Usable q) : len2 (normalize q) = 1 := by
  unfold normalize
  dsimp only
  rw [dot_self]
  unfold Usable at h
  rw [if_neg (not_le.mpr h)]
  have h0 : 0 < Real.sqrt (len2 q) := lt_trans epsilon_pos h
  have hs : Real.sqrt (len2 q) ^ 2 = len2 q := Real.sq_sqrt (len2_nonneg q)
  have : len2 (fun i => q i / Real.sqrt (len2 q)) = len2 q / Real.sqrt (len2 q) ^ 2 := by
    generalize Real.sqrt (len2 q) = s
    unfold len2
    ring
  rw [this, hs]
  have : 0 < len2 q := by rw [← hs]; positivity
  field_simp

theorem usable_of_half {q : Q} (h : 1 / 4 ≤ len2 q) : Usable q := by
  unfold Usable
  refine lt_of_lt_of_le epsilon_lt ?_
  apply Real.le_sqrt_of_sq_le
  linarith

theorem normalize_of_unit {q : Q} (h : len2 q = 1) : normalize q = q := by
  unfold normalize
  dsimp only
  rw [dot_self, h, Real.sqrt_one, if_neg (not_le.mpr (lt_trans epsilon_lt (by norm_num)))]
  simp

/-- A stored quaternion, normalised when read, is not changed by normalising it again. -/
theorem normalize_idem {q : Q} (h : Usable q) : normalize (normalize q) = normalize q :=
  normalize_of_unit (normalize_unit h)

theorem normalize_neg (q : Q) : normalize (neg q) = neg (normalize q) := by
  have hd : dot (neg q) (neg q) = dot q q := by unfold dot neg; ring
  unfold normalize
  dsimp only
  rw [hd]
  split
  · rfl
  · funext i
    simp only [neg]
    ring

theorem dot_neg_left (a b : Q) : dot (neg a) b = -dot a b := by unfold dot neg; ring
theorem dot_neg_right (a b : Q) : dot a (neg b) = -dot a b := by unfold dot neg; ring

/-- Products of normalised quaternions vanish together with the products. -/
theorem dot_normalize_ne {a b : Q} (h : dot a b ≠ 0) : dot (normalize a) (normalize b) ≠ 0 := by
  obtain ⟨c, hc, ea⟩ := normalize_scale a
  obtain ⟨d, hd, eb⟩ := normalize_scale b
  rw [ea, eb]
  have : dot (fun i => c * a i) (fun i => d * b i) = c * d * dot a b := by unfold dot; ring
  rw [this]
  exact mul_ne_zero (mul_ne_zero hc.ne' hd.ne') h

theorem combination_len2 (a b : Q) (x y : ℝ) :
    len2 (fun i => x * a i + y * b i) = x ^ 2 * len2 a + y ^ 2 * len2 b + 2 * (x * y) * dot a b := by
  unfold len2 dot
  ring

/-- The interpolated quaternion has unit length. -/
theorem slerp_unit {l r : Q} (hl : Usable l) (hr : Usable r) {t : ℝ} (h0 : 0 ≤ t) (h1 : t ≤ 1) :
    len2 (slerp l r t) = 1 := by
  unfold slerp
  dsimp only
  have ul := normalize_unit hl
  have ur := normalize_unit hr
  generalize normalize l = a at ul ⊢
  generalize normalize r = b at ur ⊢
  -- after the sign change the product is not negative
  obtain ⟨b', hb', hub, hd⟩ : ∃ b' : Q, (if dot a b < 0 then fun i => -b i else b) = b' ∧ len2 b' = 1 ∧
      (if dot a b < 0 then -dot a b else dot a b) = dot a b' := by
    split
    · refine ⟨_, rfl, ?_, ?_⟩
      · have : len2 (fun i => -b i) = len2 b := by unfold len2; ring
        rw [this, ur]
      · exact (dot_neg_right a b).symm
    · exact ⟨b, rfl, ur, rfl⟩
  rw [hb', hd]
  have hd0 : 0 ≤ dot a b' := by
    rw [← hd]
    split <;> linarith
  split
  · exact ul
  · rename_i hd1
    have hd1 : dot a b' < 1 := not_le.mp hd1
    split
    · apply normalize_unit
      apply usable_of_half
      have e : (fun i => a i + t * (b' i - a i)) = fun i => (1 - t) * a i + t * b' i := by
        funext i; ring
      rw [e, combination_len2, ul, hub]
      have : 0 ≤ (1 - t) * t * dot a b' := mul_nonneg (mul_nonneg (by linarith) h0) hd0
      nlinarith [sq_nonneg (2 * t - 1)]
    · apply normalize_unit
      apply usable_of_half
      rw [combination_len2, ul, hub]
      have hcos : Real.cos (Real.arccos (dot a b')) = dot a b' := Real.cos_arccos (by linarith) hd1.le
      have hsin : 0 < Real.sin (Real.arccos (dot a b')) := by
        rw [Real.sin_arccos]
        apply Real.sqrt_pos.mpr
        nlinarith
      generalize Real.arccos (dot a b') = θ at hcos hsin
      rw [← hcos]
      have hθ : θ = (1 - t) * θ + t * θ := by ring
      have hc : Real.cos θ = Real.cos ((1 - t) * θ) * Real.cos (t * θ) - Real.sin ((1 - t) * θ) * Real.sin (t * θ) := by
        conv_lhs => rw [hθ]
        exact Real.cos_add _ _
      have hs : Real.sin θ = Real.sin ((1 - t) * θ) * Real.cos (t * θ) + Real.cos ((1 - t) * θ) * Real.sin (t * θ) := by
        conv_lhs => rw [hθ]
        exact Real.sin_add _ _
      have p1 := Real.sin_sq_add_cos_sq ((1 - t) * θ)
      have p2 := Real.sin_sq_add_cos_sq (t * θ)
      generalize Real.sin ((1 - t) * θ) = sa at *
      generalize Real.sin (t * θ) = sb at *
      generalize Real.cos ((1 - t) * θ) = ca at *
      generalize Real.cos (t * θ) = cb at *
      have key : sa ^ 2 + sb ^ 2 + 2 * (sa * sb) * Real.cos θ = Real.sin θ ^ 2 := by
        rw [hc, hs]
        linear_combination (sa ^ 2 + sb ^ 2 - sa ^ 2) * 0 + (-sb ^ 2) * p1 + (-sa ^ 2) * p2 
      generalize Real.sin θ = S at *
      have : (sa / S) ^ 2 * 1 + (sb / S) ^ 2 * 1 + 2 * (sa / S * (sb / S)) * Real.cos θ = 1 := by
        field_simp
        linear_combination key
      rw [this]
      norm_num

/-- Two unit quaternions whose product is at least one are equal. -/
theorem eq_of_dot {a b : Q} (ha : len2 a = 1) (hb : len2 b = 1) (h : 1 ≤ dot a b) : a = b := by
  have e : (a 0 - b 0) ^ 2 + (a 1 - b 1) ^ 2 + (a 2 - b 2) ^ 2 + (a 3 - b 3) ^ 2 = len2 a + len2 b - 2 * dot a b := by
    unfold len2 dot; ring
  have hz : (a 0 - b 0) ^ 2 + (a 1 - b 1) ^ 2 + (a 2 - b 2) ^ 2 + (a 3 - b 3) ^ 2 ≤ 0 := by rw [e]; linarith
  have q0 := sq_nonneg (a 0 - b 0)
  have q1 := sq_nonneg (a 1 - b 1)
  have q2 := sq_nonneg (a 2 - b 2)
  have q3 := sq_nonneg (a 3 - b 3)
  funext i
  fin_cases i
  · have : (a 0 - b 0) ^ 2 = 0 := by linarith
    exact sub_eq_zero.mp (pow_eq_zero_iff two_ne_zero |>.mp this)
  · have : (a 1 - b 1) ^ 2 = 0 := by linarith
    exact sub_eq_zero.mp (pow_eq_zero_iff two_ne_zero |>.mp this)
  · have : (a 2 - b 2) ^ 2 = 0 := by linarith
    exact sub_eq_zero.mp (pow_eq_zero_iff two_ne_zero |>.mp this)
  · have : (a 3 - b 3) ^ 2 = 0 := by linarith
    exact sub_eq_zero.mp (pow_eq_zero_iff two_ne_zero |>.mp this)

/-- The interpolation starts at the earlier attitude and ends at the later one. -/
theorem slerp_ends {l r : Q} (hl : Usable l) (hr : Usable r) :
    slerp l r 0 = normalize l ∧ rotMat (slerp l r 1) = rotMat (normalize r) := by
  unfold slerp
  dsimp only
  have ul := normalize_unit hl
  have ur := normalize_unit hr
  generalize normalize l = a at ul ⊢
  generalize normalize r = b at ur ⊢
  obtain ⟨b', hb', hub, hd, hrot⟩ : ∃ b' : Q, (if dot a b < 0 then fun i => -b i else b) = b' ∧ len2 b' = 1 ∧
      (if dot a b < 0 then -dot a b else dot a b) = dot a b' ∧ rotMat b' = rotMat b := by
    split
    · refine ⟨_, rfl, ?_, ?_, ?_⟩
      · have : len2 (fun i => -b i) = len2 b := by unfold len2; ring
        rw [this, ur]
      · exact (dot_neg_right a b).symm
      · exact rotMat_neg b
    · exact ⟨b, rfl, ur, rfl, rfl⟩
  rw [hb', hd, ← hrot]
  split
  · rename_i h1
    exact ⟨rfl, by rw [eq_of_dot ul hub h1]⟩
  · rename_i hd1
    have hd1 : dot a b' < 1 := not_le.mp hd1
    have hd0 : 0 ≤ dot a b' := by
      rw [← hd]
      split <;> linarith
    have hna : normalize a = a := normalize_of_unit ul
    have hnb : normalize b' = b' := normalize_of_unit hub
    split
    · simp only [zero_mul, add_zero, one_mul, add_sub_cancel]
      exact ⟨hna, by rw [hnb]⟩
    · have hsin : Real.sin (Real.arccos (dot a b')) ≠ 0 := by
        rw [Real.sin_arccos]
        apply ne_of_gt
        apply Real.sqrt_pos.mpr
        nlinarith
      simp only [sub_zero, one_mul, zero_mul, Real.sin_zero, zero_div, add_zero, sub_self, zero_add, div_self hsin]
      exact ⟨hna, by rw [hnb]⟩

/-- The interpolation turns at a uniform rate: after the fraction `t` it has turned by `t` of the angle
between the two attitudes (taken along the shorter way), except within the small-angle branch. -/
theorem slerp_uniform {l r : Q} (hl : Usable l) (hr : Usable r) {t : ℝ} (h0 : 0 ≤ t) (h1 : t ≤ 1)
    (hfar : |dot (normalize l) (normalize r)| ≤ 9995 / 10000) :
    dot (normalize l) (slerp l r t) = Real.cos (t * Real.arccos |dot (normalize l) (normalize r)|) := by
  have hun := slerp_unit hl hr h0 h1
  unfold slerp at hun ⊢
  dsimp only at hun ⊢
  have ul := normalize_unit hl
  have ur := normalize_unit hr
  generalize normalize l = a at ul hfar hun ⊢
  generalize normalize r = b at ur hfar hun ⊢
  have habs : (if dot a b < 0 then -dot a b else dot a b) = |dot a b| := by
    split
    · rename_i h; rw [abs_of_neg h]
    · rename_i h; rw [abs_of_nonneg (not_lt.mp h)]
  obtain ⟨b', hb', hub, hd⟩ : ∃ b' : Q, (if dot a b < 0 then fun i => -b i else b) = b' ∧ len2 b' = 1 ∧
      |dot a b| = dot a b' := by
    rw [← habs]
    split
    · refine ⟨_, rfl, ?_, ?_⟩
      · have : len2 (fun i => -b i) = len2 b := by unfold len2; ring
        rw [this, ur]
      · exact (dot_neg_right a b).symm
    · exact ⟨b, rfl, ur, rfl⟩
  rw [hb', habs, if_neg (by linarith), if_neg (by linarith)] at hun ⊢
  have hc0 : 0 ≤ |dot a b| := abs_nonneg _
  have hcos : Real.cos (Real.arccos |dot a b|) = |dot a b| := Real.cos_arccos (by linarith) (by linarith)
  have hsin : Real.sin (Real.arccos |dot a b|) ≠ 0 := by
    rw [Real.sin_arccos]
    apply ne_of_gt
    apply Real.sqrt_pos.mpr
    nlinarith
  generalize Real.arccos |dot a b| = θ at hcos hsin hun ⊢
  rw [hd] at hcos
  -- the combination is of unit length already
  have hlen : len2 (fun i => Real.sin ((1 - t) * θ) / Real.sin θ * a i + Real.sin (t * θ) / Real.sin θ * b' i) = 1 := by
    rw [combination_len2, ul, hub, ← hcos]
    have hθ : θ = (1 - t) * θ + t * θ := by ring
    have hc : Real.cos θ = Real.cos ((1 - t) * θ) * Real.cos (t * θ) - Real.sin ((1 - t) * θ) * Real.sin (t * θ) := by
      conv_lhs => rw [hθ]
      exact Real.cos_add _ _
    have hs : Real.sin θ = Real.sin ((1 - t) * θ) * Real.cos (t * θ) + Real.cos ((1 - t) * θ) * Real.sin (t * θ) := by
      conv_lhs => rw [hθ]
      exact Real.sin_add _ _
    have p1 := Real.sin_sq_add_cos_sq ((1 - t) * θ)
    have p2 := Real.sin_sq_add_cos_sq (t * θ)
    generalize Real.sin ((1 - t) * θ) = sa at *
    generalize Real.sin (t * θ) = sb at *
    generalize Real.cos ((1 - t) * θ) = ca at *
    generalize Real.cos (t * θ) = cb at *
    have key : sa ^ 2 + sb ^ 2 + 2 * (sa * sb) * Real.cos θ = Real.sin θ ^ 2 := by
      rw [hc, hs]
      linear_combination (-sb ^ 2) * p1 + (-sa ^ 2) * p2
    generalize Real.sin θ = S at *
    field_simp
    linear_combination key
  rw [normalize_of_unit hlen]
  have e : dot a (fun i => Real.sin ((1 - t) * θ) / Real.sin θ * a i + Real.sin (t * θ) / Real.sin θ * b' i) =
      Real.sin ((1 - t) * θ) / Real.sin θ * len2 a + Real.sin (t * θ) / Real.sin θ * dot a b' := by
    unfold dot len2; ring
  rw [e, ul, ← hcos, mul_one]
  have hs : Real.sin ((1 - t) * θ) = Real.sin θ * Real.cos (t * θ) - Real.cos θ * Real.sin (t * θ) := by
    rw [← Real.sin_sub]; congr 1; ring
  rw [hs]
  field_simp
  ring

/-- Negating the later quaternion changes nothing, negating the earlier one negates the result. -/
theorem slerp_neg {l r : Q} (h : dot l r ≠ 0) (t : ℝ) :
    slerp l (neg r) t = slerp l r t ∧ slerp (neg l) r t = neg (slerp l r t) := by
  have hne := dot_normalize_ne h
  unfold slerp
  dsimp only
  rw [normalize_neg, normalize_neg]
  generalize normalize l = a at hne ⊢
  generalize normalize r = b at hne ⊢
  rw [dot_neg_right, dot_neg_left]
  have scale : ∀ (x y : ℝ) (u v : Q), (fun i => x * neg u i + y * -v i) = neg (fun i => x * u i + y * v i) := by
    intro x y u v; funext i; simp only [neg]; ring
  have scale2 : ∀ (x y : ℝ) (u v : Q), (fun i => x * neg u i + y * v i) = neg (fun i => x * u i + y * -v i) := by
    intro x y u v; funext i; simp only [neg]; ring
  have lerp : ∀ (u v : Q), (fun i => neg u i + t * (-v i - neg u i)) = neg (fun i => u i + t * (v i - u i)) := by
    intro u v; funext i; simp only [neg]; ring
  have lerp2 : ∀ (u v : Q), (fun i => neg u i + t * (v i - neg u i)) = neg (fun i => u i + t * (-v i - u i)) := by
    intro u v; funext i; simp only [neg]; ring
  rcases lt_or_gt_of_ne hne with hlt | hgt
  · have h1 : ¬ (-dot a b < 0) := by linarith
    have hnn : (fun i => - -b i) = b := by funext i; ring
    simp only [hlt, h1, if_true, if_false]
    refine ⟨rfl, ?_⟩
    split
    · rfl
    · split
      · rw [lerp2, normalize_neg]
      · rw [scale2, normalize_neg]
  · have h1 : ¬ (dot a b < 0) := by linarith
    have h2 : -dot a b < 0 := by linarith
    simp only [h1, h2, if_true, if_false, neg_neg]
    constructor
    · have : ∀ i, -neg b i = b i := fun i => by simp [neg]
      simp only [this]
    · split
      · rfl
      · split
        · rw [lerp, normalize_neg]
        · rw [scale, normalize_neg]

/-! ### The table -/

/-- Records in order of time. -/
def Sorted (l : List Rec) : Prop := l.Pairwise (fun a b => a.t < b.t)

/-- The contract of `binary_search_by` on a sorted table. -/
def SearchOk (search : List Rec → ℝ → Found) : Prop :=
  ∀ l x, Sorted l → match search l x with
    | .at i => ∃ r, l[i]? = some r ∧ r.t = x
    | .insert i => i ≤ l.length ∧ (∀ j r, j < i → l[j]? = some r → r.t < x) ∧ (∀ j r, i ≤ j → l[j]? = some r → x < r.t)

/-- A search that meets the contract. -/
noncomputable def linear : List Rec → ℝ → Found
  | [], _ => .insert 0
  | r :: l, x =>
    if x < r.t then .insert 0 else if r.t = x then .at 0
    else match linear l x with
      | .at i => .at (i + 1)
      | .insert i => .insert (i + 1)

theorem linear_ok : SearchOk linear := by
  intro l x
  induction l with
  | nil => intro _; simp [linear]
  | cons r l ih =>
    intro hs
    unfold Sorted at hs ih
    rw [List.pairwise_cons] at hs
    have ih := ih hs.2
    unfold linear
    by_cases h1 : x < r.t
    · simp only [h1, if_true]
      refine ⟨by simp, by simp, ?_⟩
      intro j s _ hj
      cases j with
      | zero => simp only [List.getElem?_cons_zero, Option.some.injEq] at hj; rw [← hj]; exact h1
      | succ j =>
        rw [List.getElem?_cons_succ] at hj
        exact h1.trans (hs.1 s (List.mem_of_getElem? hj))
    · by_cases h2 : r.t = x
      · rw [if_neg h1, if_pos h2]
        exact ⟨r, rfl, h2⟩
      · simp only [h1, h2, if_false]
        rcases hl : linear l x with i | i
        · rw [hl] at ih
          simpa using ih
        · rw [hl] at ih
          obtain ⟨hi, hb, ha⟩ := ih
          refine ⟨by simpa using hi, ?_, ?_⟩
          · intro j s hj hjs
            cases j with
            | zero =>
              simp only [List.getElem?_cons_zero, Option.some.injEq] at hjs
              rw [← hjs]
              exact lt_of_le_of_ne (not_lt.mp h1) h2
            | succ j => exact hb j s (by omega) (by simpa using hjs)
          · intro j s hj hjs
            cases j with
            | zero => omega
            | succ j => exact ha j s (by omega) (by simpa using hjs)

variable {search : List Rec → ℝ → Found}

theorem sorted_inj {l : List Rec} (h : Sorted l) {i j : Nat} {a b : Rec} (hi : l[i]? = some a) (hj : l[j]? = some b)
    (hab : a.t = b.t) : i = j := by
  unfold Sorted at h
  rw [List.pairwise_iff_getElem] at h
  obtain ⟨hi', ei⟩ := List.getElem?_eq_some_iff.mp hi
  obtain ⟨hj', ej⟩ := List.getElem?_eq_some_iff.mp hj
  rcases Nat.lt_trichotomy i j with hlt | he | hgt
  · have := h i j hi' hj' hlt
    rw [ei, ej, hab] at this
    exact absurd this (lt_irrefl _)
  · exact he
  · have := h j i hj' hi' hgt
    rw [ei, ej, hab] at this
    exact absurd this (lt_irrefl _)

theorem head_le {l : List Rec} (h : Sorted l) {f : Rec} (hf : l.head? = some f) {r : Rec} (hr : r ∈ l) : f.t ≤ r.t := by
  cases l with
  | nil => simp at hr
  | cons a l =>
    simp only [List.head?_cons, Option.some.injEq] at hf
    subst hf
    unfold Sorted at h
    rw [List.pairwise_cons] at h
    rcases List.mem_cons.mp hr with rfl | hr
    · exact le_refl _
    · exact (h.1 r hr).le

theorem le_last {l : List Rec} (h : Sorted l) (hne : l ≠ []) {r : Rec} (hr : r ∈ l) : r.t ≤ (l.getLast hne).t := by
  induction l with
  | nil => simp at hr
  | cons a l ih =>
    unfold Sorted at h ih
    rw [List.pairwise_cons] at h
    cases l with
    | nil => simp only [List.mem_singleton] at hr; rw [hr]; simp
    | cons b l =>
      rw [List.getLast_cons (by simp)]
      rcases List.mem_cons.mp hr with rfl | hr
      · exact (h.1 _ (List.getLast_mem (by simp))).le
      · exact ih h.2 (by simp) hr

/-- At the epoch of a record the attitude is that of the record. -/
theorem attitude_at_record (hsearch : SearchOk search) {s : Segment} (hs : Sorted s.records) {r : Rec}
    (hr : r ∈ s.records) : evaluate search s r.t = .ok (normalize r.q) := by
  obtain ⟨i, hi⟩ := List.mem_iff_getElem?.mp hr
  unfold evaluate
  split
  · rename_i he
    rw [he] at hr
    simp at hr
  · rename_i first rest he
    dsimp only
    rw [if_neg]
    · have hso := hsearch s.records r.t hs
      split
      · rename_i j hj
        rw [hj] at hso
        obtain ⟨r', hr', ht⟩ := hso
        have hij := sorted_inj hs hr' hi ht
        subst hij
        rw [List.getD_eq_getElem?_getD, hi]
        rfl
      · rename_i j hj
        rw [hj] at hso
        obtain ⟨_, hb, ha⟩ := hso
        exfalso
        rcases Nat.lt_or_ge i j with hlt | hge
        · exact lt_irrefl _ (hb i r hlt hi)
        · exact lt_irrefl _ (ha i r hge hi)
    · rintro (h | h)
      · exact absurd (head_le hs (f := first) (by rw [he]; rfl) hr) (not_le.mpr h)
      · have := le_last hs (by rw [he]; simp) hr
        simp only [he] at this
        exact absurd this (not_le.mpr h)

/-- Between neighbouring records (further apart than the rounding unit) the attitude is the interpolation of
the two. -/
theorem attitude_between (hsearch : SearchOk search) {s : Segment} (hs : Sorted s.records) {i : Nat} {l r : Rec}
    (hl : s.records[i]? = some l) (hr : s.records[i + 1]? = some r) (hgap : epsilon < r.t - l.t) {x : ℝ}
    (h1 : l.t < x) (h2 : x < r.t) :
    evaluate search s x = .ok (slerp l.q r.q ((x - l.t) / (r.t - l.t))) := by
  have hlm := List.mem_of_getElem? hl
  have hrm := List.mem_of_getElem? hr
  unfold evaluate
  split
  · rename_i he
    rw [he] at hlm
    simp at hlm
  · rename_i first rest he
    dsimp only
    rw [if_neg]
    · have hso := hsearch s.records x hs
      have hpos : ∀ j q, s.records[j]? = some q → (j ≤ i → q.t ≤ l.t) ∧ (i + 1 ≤ j → r.t ≤ q.t) := by
        intro j q hj
        have hp := hs
        unfold Sorted at hp
        rw [List.pairwise_iff_getElem] at hp
        obtain ⟨hj', ej⟩ := List.getElem?_eq_some_iff.mp hj
        obtain ⟨hl', el⟩ := List.getElem?_eq_some_iff.mp hl
        obtain ⟨hr', er⟩ := List.getElem?_eq_some_iff.mp hr
        constructor
        · intro hji
          rcases Nat.lt_or_eq_of_le hji with hlt | heq
          · have := hp j i hj' hl' hlt
            rw [ej, el] at this
            exact this.le
          · subst heq
            rw [← ej, ← el]
        · intro hij
          rcases Nat.lt_or_eq_of_le hij with hlt | heq
          · have := hp (i + 1) j hr' hj' hlt
            rw [ej, er] at this
            exact this.le
          · subst heq
            rw [← ej, ← er]
      split
      · rename_i j hj
        rw [hj] at hso
        obtain ⟨r', hr', ht⟩ := hso
        exfalso
        rcases Nat.lt_or_ge j (i + 1) with hlt | hge
        · have := (hpos j r' hr').1 (by omega)
          linarith
        · have := (hpos j r' hr').2 hge
          linarith
      · rename_i j hj
        rw [hj] at hso
        obtain ⟨_, hb, ha⟩ := hso
        have hji : j = i + 1 := by
          apply Nat.le_antisymm
          · by_contra hc
            have := hb (i + 1) r (by omega) hr
            linarith
          · by_contra hc
            have := ha i l (by omega) hl
            linarith
        subst hji
        have hlen : i + 1 < s.records.length := (List.getElem?_eq_some_iff.mp hr).1
        rw [if_neg (by omega)]
        simp only [Nat.add_sub_cancel, List.getD_eq_getElem?_getD, hl, hr, Option.getD_some]
        rw [if_neg]
        rw [abs_of_pos (lt_trans epsilon_pos hgap)]
        exact not_le.mpr hgap
    · rintro (h | h)
      · have := head_le hs (f := first) (by rw [he]; rfl) hlm
        linarith
      · have := le_last hs (by rw [he]; simp) hrm
        simp only [he] at this
        linarith

/-- Any time within the table gets an attitude, any time outside is out of coverage. -/
theorem attitude_total (hsearch : SearchOk search) {s : Segment} (hs : Sorted s.records) (hne : s.records ≠ []) (x : ℝ) :
    ((s.records.head hne).t ≤ x ∧ x ≤ (s.records.getLast hne).t → ∃ q, evaluate search s x = .ok q) ∧
    (x < (s.records.head hne).t ∨ (s.records.getLast hne).t < x → evaluate search s x = .error .outOfCoverage) := by
  unfold evaluate
  split
  · rename_i he
    exact absurd he hne
  · rename_i first rest he
    dsimp only
    have hh : s.records.head hne = first := by simp [he]
    have hl : s.records.getLast hne = (first :: rest).getLast (by simp) := by simp [he]
    rw [hh, hl]
    constructor
    · rintro ⟨h1, h2⟩
      rw [if_neg (by rintro (h | h) <;> linarith)]
      have hso := hsearch s.records x hs
      split
      · exact ⟨_, rfl⟩
      · rename_i j hj
        rw [hj] at hso
        obtain ⟨hjl, hb, ha⟩ := hso
        rw [if_neg]
        · split <;> exact ⟨_, rfl⟩
        · rintro (h | h)
          · have := ha 0 first (by omega) (by rw [he]; rfl)
            linarith
          · have hx := hb (s.records.length - 1) _ (by
              have : 0 < s.records.length := List.length_pos_iff.mpr hne
              omega) (List.getElem?_eq_getElem (by
              have : 0 < s.records.length := List.length_pos_iff.mpr hne
              omega))
            rw [← List.getLast_eq_getElem hne, hl] at hx
            linarith
    · intro h
      rw [if_pos h]

/-- Every attitude returned is of unit length, if every stored quaternion is usable. -/
theorem attitude_unit (hsearch : SearchOk search) {s : Segment} (hs : Sorted s.records)
    (hu : ∀ r ∈ s.records, Usable r.q) {x : ℝ} {q : Q} (h : evaluate search s x = .ok q) : len2 q = 1 := by
  unfold evaluate at h
  split at h
  · simp at h
  · rename_i first rest he
    have hf : Usable first.q := hu first (by rw [he]; simp)
    have hget : ∀ i, Usable (s.records.getD i first).q := by
      intro i
      rw [List.getD_eq_getElem?_getD]
      rcases hi : s.records[i]? with _ | r
      · exact hf
      · exact hu r (List.mem_of_getElem? hi)
    dsimp only at h
    split at h
    · simp at h
    · have hso := hsearch s.records x hs
      split at h
      · simp only [Except.ok.injEq] at h
        rw [← h]
        exact normalize_unit (hget _)
      · rename_i j hj
        rw [hj] at hso
        obtain ⟨hjl, hb, ha⟩ := hso
        split at h
        · simp at h
        · rename_i hj0
          push Not at hj0
          split at h
          · simp only [Except.ok.injEq] at h
            rw [← h]
            exact normalize_unit (hget _)
          · rename_i hgap
            simp only [Except.ok.injEq] at h
            rw [← h]
            have hl : s.records[j - 1]? = some (s.records.getD (j - 1) first) := by
              rw [List.getD_eq_getElem?_getD, List.getElem?_eq_getElem (by omega)]; rfl
            have hr : s.records[j]? = some (s.records.getD j first) := by
              rw [List.getD_eq_getElem?_getD, List.getElem?_eq_getElem (by omega)]; rfl
            have h1 := hb (j - 1) _ (by omega) hl
            have h2 := ha j _ (le_refl _) hr
            apply slerp_unit (hget _) (hget _)
            · apply div_nonneg <;> linarith
            · rw [div_le_one (by linarith)]
              linarith

/-- Two tables that differ only in the signs of quaternions. -/
def SameUpToSign (l l' : List Rec) : Prop :=
  List.Forall₂ (fun a b => a.t = b.t ∧ (b.q = a.q ∨ b.q = neg a.q)) l l'

/-- Interpolating quaternions that differ in sign gives the same rotation, unless the two ends are exactly
orthogonal (a half turn apart). -/
theorem sign_irrelevant_partial {a b a' b' : Q} (h : dot a b ≠ 0) (ha : a' = a ∨ a' = neg a) (hb : b' = b ∨ b' = neg b)
    (t : ℝ) : rotMat (slerp a' b' t) = rotMat (slerp a b t) ∧ rotMat (normalize a') = rotMat (normalize a) := by
  have h2 : dot (neg a) b ≠ 0 := by rw [dot_neg_left]; exact neg_ne_zero.mpr h
  constructor
  · rcases ha with rfl | rfl <;> rcases hb with rfl | rfl
    · rfl
    · rw [(slerp_neg h t).1]
    · rw [(slerp_neg h t).2, rotMat_neg]
    · rw [(slerp_neg h2 t).1, (slerp_neg h t).2, rotMat_neg]
  · rcases ha with rfl | rfl
    · rfl
    · rw [normalize_neg, rotMat_neg]

/-- The whole table: changing signs of stored quaternions does not change the rotation at any time between
two neighbours that are not orthogonal, nor at a record. -/
theorem table_sign_irrelevant_partial (hsearch : SearchOk search) {s s' : Segment} (hs : Sorted s.records)
    (hsame : SameUpToSign s.records s'.records) {i : Nat} {l r : Rec}
    (hl : s.records[i]? = some l) (hr : s.records[i + 1]? = some r) (hgap : epsilon < r.t - l.t) (hdot : dot l.q r.q ≠ 0)
    {x : ℝ} (h1 : l.t ≤ x) (h2 : x < r.t) :
    ∃ q q', evaluate search s x = .ok q ∧ evaluate search s' x = .ok q' ∧ rotMat q' = rotMat q := by
  have hs' : Sorted s'.records := by
    unfold Sorted at hs ⊢
    have : ∀ {l l' : List Rec}, SameUpToSign l l' → l'.map Rec.t = l.map Rec.t := by
      intro l l' h
      induction h with
      | nil => rfl
      | cons h _ ih => simp [ih, h.1]
    have hm := this hsame
    rw [← List.pairwise_map (f := Rec.t) (R := (· < ·))] at hs ⊢
    rw [hm]
    exact hs
  have hat : ∀ {l l' : List Rec}, SameUpToSign l l' → ∀ {j : Nat} {a : Rec}, l[j]? = some a →
      ∃ b : Rec, l'[j]? = some b ∧ a.t = b.t ∧ (b.q = a.q ∨ b.q = neg a.q) := by
    intro l l' h
    induction h with
    | nil => intro j a hj; simp at hj
    | cons h _ ih =>
      intro j a hj
      cases j with
      | zero =>
        simp only [List.getElem?_cons_zero, Option.some.injEq] at hj
        subst hj
        exact ⟨_, rfl, h⟩
      | succ j =>
        rw [List.getElem?_cons_succ] at hj ⊢
        exact ih hj
  obtain ⟨l', hl', tl, ql⟩ := hat hsame hl
  obtain ⟨r', hr', tr, qr⟩ := hat hsame hr
  rcases lt_or_eq_of_le h1 with h1 | h1
  · refine ⟨_, _, attitude_between hsearch hs hl hr hgap h1 h2,
      attitude_between hsearch hs' hl' hr' (by rw [← tl, ← tr]; exact hgap) (by rw [← tl]; exact h1) (by rw [← tr]; exact h2), ?_⟩
    rw [← tl, ← tr]
    exact (sign_irrelevant_partial hdot ql qr _).1
  · subst h1
    refine ⟨_, normalize l'.q, attitude_at_record hsearch hs (List.mem_of_getElem? hl), ?_, ?_⟩
    · rw [tl]
      exact attitude_at_record hsearch hs' (List.mem_of_getElem? hl')
    · exact (sign_irrelevant_partial hdot ql qr 0).2

/-- Disagreement: for orthogonal neighbours the sign matters. -/
theorem orthogonal_sign_matters :
    rotMat (slerp ![1, 0, 0, 0] ![0, 1, 0, 0] (1 / 2)) ≠ rotMat (slerp ![1, 0, 0, 0] (neg ![0, 1, 0, 0]) (1 / 2)) := by
  have u1 : normalize ![1, 0, 0, 0] = ![1, 0, 0, 0] := normalize_of_unit (by simp [len2])
  have u2 : normalize ![0, 1, 0, 0] = ![0, 1, 0, 0] := normalize_of_unit (by simp [len2])
  have hc : Real.arccos 0 = Real.pi / 2 := Real.arccos_zero
  have e1 : slerp ![1, 0, 0, 0] ![0, 1, 0, 0] (1 / 2) =
      normalize ![Real.sin (Real.pi / 4), Real.sin (Real.pi / 4), 0, 0] := by
    unfold slerp
    dsimp only
    rw [u1, u2]
    have hd : dot ![1, 0, 0, 0] ![0, 1, 0, 0] = 0 := by simp [dot]
    rw [hd]
    simp only [lt_irrefl, if_false]
    rw [if_neg (by norm_num), if_neg (by norm_num), hc]
    congr 1
    have p : (1 - 1 / 2) * (Real.pi / 2) = Real.pi / 4 := by ring
    have p' : 1 / 2 * (Real.pi / 2) = Real.pi / 4 := by ring
    rw [p, p', Real.sin_pi_div_two]
    funext i
    fin_cases i <;> simp
  have e2 : slerp ![1, 0, 0, 0] (neg ![0, 1, 0, 0]) (1 / 2) =
      normalize ![Real.sin (Real.pi / 4), -Real.sin (Real.pi / 4), 0, 0] := by
    unfold slerp
    dsimp only
    rw [normalize_neg, u1, u2]
    have hd : dot ![1, 0, 0, 0] (neg ![0, 1, 0, 0]) = 0 := by simp [dot, neg]
    rw [hd]
    simp only [lt_irrefl, if_false]
    rw [if_neg (by norm_num), if_neg (by norm_num), hc]
    congr 1
    have p : (1 - 1 / 2) * (Real.pi / 2) = Real.pi / 4 := by ring
    have p' : 1 / 2 * (Real.pi / 2) = Real.pi / 4 := by ring
    rw [p, p', Real.sin_pi_div_two]
    funext i
    fin_cases i <;> simp [neg]
  have hs : Real.sin (Real.pi / 4) ^ 2 = 1 / 2 := by
    rw [Real.sin_pi_div_four, div_pow, Real.sq_sqrt (by norm_num)]
    norm_num
  generalize Real.sin (Real.pi / 4) = w at *
  have n1 : normalize ![w, w, 0, 0] =
      ![w, w, 0, 0] :=
    normalize_of_unit (by simp [len2]; linarith)
  have n2 : normalize ![w, -w, 0, 0] =
      ![w, -w, 0, 0] :=
    normalize_of_unit (by simp [len2]; linarith)
  rw [e1, e2, n1, n2]
  intro h
  have := congrFun (congrFun h 2) 1
  simp [rotMat] at this
  nlinarith [hs]

/-! ### Several segments -/

/-- The answer comes from the first segment, in file order, of that instrument whose bounds hold the time;
without one it is an error. -/
theorem rotation_spec (search : List Rec → ℝ → Found) (segs : List Segment) (inst : Int) (x : ℝ) :
    (∀ s, segs.find? (fun s => decide (s.inst = inst) && (decide (s.start ≤ x) && decide (x ≤ s.stop))) = some s →
      rotation search segs inst x = evaluate search s x) ∧
    (segs.find? (fun s => decide (s.inst = inst) && (decide (s.start ≤ x) && decide (x ≤ s.stop))) = none →
      rotation search segs inst x = .error (if segs.any (fun s => s.inst = inst) then .outOfCoverage else .unsupported)) := by
  unfold rotation
  have gen : ∀ seen, (∀ s, segs.find? (fun s => decide (s.inst = inst) && (decide (s.start ≤ x) && decide (x ≤ s.stop))) = some s →
      rotationLoop search inst x segs seen = evaluate search s x) ∧
    (segs.find? (fun s => decide (s.inst = inst) && (decide (s.start ≤ x) && decide (x ≤ s.stop))) = none →
      rotationLoop search inst x segs seen =
        .error (if seen || segs.any (fun s => s.inst = inst) then .outOfCoverage else .unsupported)) := by
    induction segs with
    | nil =>
      intro seen
      simp only [List.find?_nil, reduceCtorEq, false_imp_iff, implies_true, true_and, rotationLoop, List.any_nil,
        Bool.or_false, forall_const]
      split <;> rfl
    | cons s segs ih =>
      intro seen
      unfold rotationLoop
      by_cases h1 : s.inst = inst
      · by_cases h2 : s.start ≤ x ∧ x ≤ s.stop
        · simp [h1, h2.1, h2.2]
        · have hf : (decide (s.start ≤ x) && decide (x ≤ s.stop)) = false := by
            rw [Bool.eq_false_iff]
            simpa using h2
          rw [List.find?_cons, hf, Bool.and_false]
          simp only [h1, h2, if_false, ne_eq, not_true_eq_false]
          have := ih true
          simpa [h1] using this
      · rw [List.find?_cons]
        simp only [h1, decide_false, Bool.false_and, ne_eq, not_false_eq_true, if_true, List.any_cons, Bool.false_or]
        exact ih seen
  simpa using gen false

/-- Disagreement: the first segment claims the time but has no records there; a later segment that could
answer is not asked. -/
theorem shadowed_segment (hsearch : SearchOk search) :
    rotation search [⟨-1, 0, 10, [⟨0, ![1, 0, 0, 0]⟩, ⟨1, ![1, 0, 0, 0]⟩]⟩, ⟨-1, 0, 10, [⟨5, ![1, 0, 0, 0]⟩]⟩] (-1) 5 =
        .error .outOfCoverage ∧
    ∃ q, evaluate search ⟨-1, 0, 10, [⟨5, ![1, 0, 0, 0]⟩]⟩ 5 = .ok q := by
  constructor
  · have h := (rotation_spec search [⟨-1, 0, 10, [⟨0, ![1, 0, 0, 0]⟩, ⟨1, ![1, 0, 0, 0]⟩]⟩, ⟨-1, 0, 10, [⟨5, ![1, 0, 0, 0]⟩]⟩] (-1) 5).1
      ⟨-1, 0, 10, [⟨0, ![1, 0, 0, 0]⟩, ⟨1, ![1, 0, 0, 0]⟩]⟩ (by
        rw [List.find?_cons]
        have : (decide ((0 : ℝ) ≤ 5) && decide ((5 : ℝ) ≤ 10)) = true := by
          simp only [Bool.and_eq_true, decide_eq_true_eq]; norm_num
        simp only [this]
        rfl)
    rw [h]
    unfold evaluate
    simp only [List.getLast_cons_cons, List.getLast_singleton]
    rw [if_pos (by norm_num)]
  · exact ⟨_, attitude_at_record hsearch (s := ⟨-1, 0, 10, [⟨5, ![1, 0, 0, 0]⟩]⟩) (by simp [Sorted]) (r := ⟨5, ![1, 0, 0, 0]⟩) (by simp)⟩

/-! ### Reading -/

/-- The records read are the raw ones, normalised, in order of time. -/
theorem records_sorted (raw : List Rec) :
    (readRecords raw).Pairwise (fun a b => a.t ≤ b.t) ∧
    (readRecords raw).Perm (raw.map (fun r => ⟨r.t, normalize r.q⟩)) := by
  unfold readRecords
  generalize raw.map (fun r => (⟨r.t, normalize r.q⟩ : Rec)) = l
  have hperm : ∀ (r : Rec) (l : List Rec), (insertRec r l).Perm (r :: l) := by
    intro r l
    induction l with
    | nil => exact List.Perm.refl _
    | cons y l ih =>
      unfold insertRec
      split
      · exact (List.Perm.cons y ih).trans (List.Perm.swap r y l)
      · exact List.Perm.refl _
  have hsort : ∀ (r : Rec) (l : List Rec), l.Pairwise (fun a b => a.t ≤ b.t) → (insertRec r l).Pairwise (fun a b => a.t ≤ b.t) := by
    intro r l
    induction l with
    | nil => intro _; simp [insertRec]
    | cons y l ih =>
      intro h
      rw [List.pairwise_cons] at h
      unfold insertRec
      split
      · rename_i hy
        rw [List.pairwise_cons]
        refine ⟨?_, ih h.2⟩
        intro z hz
        rcases List.mem_cons.mp ((hperm r l).mem_iff.mp hz) with rfl | hz
        · exact hy
        · exact h.1 z hz
      · rename_i hy
        have hy := (not_le.mp hy).le
        rw [List.pairwise_cons, List.pairwise_cons]
        refine ⟨?_, h⟩
        intro z hz
        rcases List.mem_cons.mp hz with rfl | hz
        · exact hy
        · exact hy.trans (h.1 z hz)
  have gen : ∀ (l acc : List Rec), acc.Pairwise (fun a b => a.t ≤ b.t) →
      (l.foldl (fun acc r => insertRec r acc) acc).Pairwise (fun a b => a.t ≤ b.t) ∧
      (l.foldl (fun acc r => insertRec r acc) acc).Perm (l ++ acc) := by
    intro l
    induction l with
    | nil => intro acc h; exact ⟨h, List.Perm.refl _⟩
    | cons r l ih =>
      intro acc h
      obtain ⟨h1, h2⟩ := ih (insertRec r acc) (hsort r acc h)
      refine ⟨h1, h2.trans ?_⟩
      exact ((hperm r acc).append_left l).trans List.perm_middle
  have := gen l [] List.Pairwise.nil
  simpa using this

/-- A table with a quarter turn, as an instance of the hypotheses above. -/
example : ∃ s : Segment, Sorted s.records ∧ (∀ r ∈ s.records, Usable r.q) ∧
    s.records[0]? = some ⟨0, ![1, 0, 0, 0]⟩ ∧ s.records[1]? = some ⟨10, ![3, 3, 0, 0]⟩ ∧
    epsilon < (10 : ℝ) - 0 ∧ dot ![1, 0, 0, 0] ![3, 3, 0, 0] ≠ 0 ∧ (0 : ℝ) ≤ 4 ∧ (4 : ℝ) < 10 := by
  refine ⟨⟨-1, 0, 10, [⟨0, ![1, 0, 0, 0]⟩, ⟨10, ![3, 3, 0, 0]⟩]⟩, by simp [Sorted], ?_, rfl, rfl, ?_, ?_, by norm_num, by norm_num⟩
  · intro r hr
    simp only [List.mem_cons, List.not_mem_nil, or_false] at hr
    rcases hr with rfl | rfl
    · apply usable_of_half; simp [len2]; norm_num
    · apply usable_of_half; simp [len2]; norm_num
  · have := epsilon_lt
    linarith
  · simp [dot]

end Verif.Ck.Props
