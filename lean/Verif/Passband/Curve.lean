import Verif.Passband.Model
import Verif.Passband.Spec
import Mathlib.Tactic.LinearCombination

/-! # Curves through increasing samples -/

namespace Verif.Passband
open Set

/-- Strictly increasing abscissae, as a proposition. -/
def Inc (t : List (ℚ × ℚ)) : Prop := t.IsChain (fun p q => p.1 < q.1)

theorem inc_of {t : List (ℚ × ℚ)} (h : increasing t = true) : Inc t := by
  induction t with
  | nil => exact List.IsChain.nil
  | cons a t ih =>
    cases t with
    | nil => exact List.IsChain.singleton _
    | cons c t =>
      simp only [increasing, Bool.and_eq_true, decide_eq_true_eq] at h
      exact List.IsChain.cons_cons h.1 (ih h.2)

theorem inc_tail {p : ℚ × ℚ} {t : List (ℚ × ℚ)} (h : Inc (p :: t)) : Inc t := h.tail

theorem inc_head {p q : ℚ × ℚ} {t : List (ℚ × ℚ)} (h : Inc (p :: q :: t)) : (p.1 : ℝ) < q.1 := by
  have := (List.isChain_cons_cons.1 h).1
  exact_mod_cast this

theorem inc_last {p q : ℚ × ℚ} {t : List (ℚ × ℚ)} (h : Inc (p :: t)) (hq : (p :: t).getLast? = some q) :
    (p.1 : ℝ) ≤ q.1 := by
  induction t generalizing p with
  | nil => simp at hq; subst hq; exact le_rfl
  | cons c t ih =>
    rw [List.getLast?_cons_cons] at hq
    exact (inc_head h).le.trans (ih (inc_tail h) hq)

theorem line_first (p : ℚ × ℚ) (t : List (ℚ × ℚ)) (h : Inc (p :: t)) : line (p :: t) p.1 = p.2 := by
  cases t with
  | nil => rfl
  | cons q t =>
    rw [line, if_pos (inc_head h).le]
    ring

theorem line_seg (p q : ℚ × ℚ) (t : List (ℚ × ℚ)) {x : ℝ} (hx : x ≤ q.1) :
    line (p :: q :: t) x = p.2 + (x - p.1) / (q.1 - p.1) * (q.2 - p.2) := by rw [line, if_pos hx]

theorem line_skip (p q : ℚ × ℚ) (t : List (ℚ × ℚ)) (h : Inc (p :: q :: t)) {x : ℝ} (hx : (q.1 : ℝ) ≤ x) :
    line (p :: q :: t) x = line (q :: t) x := by
  rcases eq_or_lt_of_le hx with e | e
  · subst e
    rw [line_first _ _ (inc_tail h), line_seg _ _ _ le_rfl, div_self (sub_ne_zero.2 (inc_head h).ne')]
    ring
  · rw [line, if_neg (not_le.2 e)]

theorem line_prefix (A B : List (ℚ × ℚ)) (k : ℚ × ℚ) (h : Inc (A ++ k :: B)) {x : ℝ} (hx : x ≤ k.1) :
    line (A ++ k :: B) x = line (A ++ [k]) x ∨ A = [] := by
  induction A with
  | nil => exact Or.inr rfl
  | cons p A ih =>
    left
    cases A with
    | nil => simp only [List.cons_append, List.nil_append]; rw [line_seg _ _ _ hx, line_seg _ _ _ hx]
    | cons q A =>
      simp only [List.cons_append] at h ih ⊢
      rcases le_total x (q.1 : ℝ) with e | e
      · rw [line_seg _ _ _ e, line_seg _ _ _ e]
      · rcases ih (inc_tail h) with f | f
        · rw [line_skip _ _ _ h e, f]
          rcases eq_or_lt_of_le e with e | e
          · subst e
            rw [line_seg _ _ _ le_rfl]
            have hi : Inc (q :: (A ++ [k])) := by
              have h1 : Inc ((q :: A) ++ k :: B) := inc_tail h
              have : Inc ((q :: A) ++ [k]) :=
                List.IsChain.infix h1 ⟨[], B, by simp⟩
              exact this
            rw [line_first _ _ hi, div_self (sub_ne_zero.2 (inc_head h).ne')]
            ring
          · rw [line, if_neg (not_le.2 e)]
        · cases f

theorem line_suffix (A B : List (ℚ × ℚ)) (k : ℚ × ℚ) (h : Inc (A ++ k :: B)) {x : ℝ} (hx : (k.1 : ℝ) ≤ x) :
    line (A ++ k :: B) x = line (k :: B) x := by
  induction A with
  | nil => rfl
  | cons p A ih =>
    cases A with
    | nil => exact line_skip _ _ _ h hx
    | cons q A =>
      simp only [List.cons_append] at h ih ⊢
      have hq : (q.1 : ℝ) ≤ x := by
        have h1 : Inc (q :: (A ++ [k])) := List.IsChain.infix (inc_tail h) ⟨[], B, by simp⟩
        exact (inc_last h1 (q := k) (by rw [← List.cons_append, List.getLast?_concat])).trans hx
      rw [line_skip _ _ _ h hq]
      exact ih (inc_tail h)

/-- The chord between two neighbours. -/
theorem line_chords (t : List (ℚ × ℚ)) (h : Inc t) : Spec.Chords t (line t) := by
  rintro p q ⟨A, B, rfl⟩ x h0 h1
  have e : A ++ [p, q] ++ B = A ++ p :: q :: B := by simp
  rw [e] at h ⊢
  rw [line_suffix _ _ _ h h0]
  have hi : Inc (p :: q :: B) := List.IsChain.infix h ⟨A, [], by simp⟩
  have hne : ((q.1 : ℝ) - p.1) ≠ 0 := sub_ne_zero.2 (inc_head hi).ne'
  rw [line_seg _ _ _ h1]
  field_simp
  ring

theorem chord_le {a b ya yb x m : ℝ} (h : a < b) (h0 : a ≤ x) (h1 : x ≤ b) (ha : ya ≤ m) (hb : yb ≤ m) :
    ya + (x - a) / (b - a) * (yb - ya) ≤ m := by
  have hd : 0 < b - a := sub_pos.2 h
  have e : ya + (x - a) / (b - a) * (yb - ya) = (ya * (b - x) + yb * (x - a)) / (b - a) := by
    field_simp
    ring
  rw [e, div_le_iff₀ hd]
  nlinarith [mul_nonneg (sub_nonneg.2 ha) (sub_nonneg.2 h1), mul_nonneg (sub_nonneg.2 hb) (sub_nonneg.2 h0)]

theorem le_chord {a b ya yb x m : ℝ} (h : a < b) (h0 : a ≤ x) (h1 : x ≤ b) (ha : m ≤ ya) (hb : m ≤ yb) :
    m ≤ ya + (x - a) / (b - a) * (yb - ya) := by
  have := chord_le (ya := -ya) (yb := -yb) (m := -m) h h0 h1 (neg_le_neg ha) (neg_le_neg hb)
  have e : -ya + (x - a) / (b - a) * (-yb - -ya) = -(ya + (x - a) / (b - a) * (yb - ya)) := by ring
  rw [e] at this
  exact neg_le_neg_iff.1 this

theorem line_range (t : List (ℚ × ℚ)) (p : ℚ × ℚ) (h : Inc (p :: t)) {lo hi : ℝ} (hb : ∀ q ∈ p :: t, lo ≤ (q.2 : ℝ) ∧ (q.2 : ℝ) ≤ hi)
    {x : ℝ} (h0 : (p.1 : ℝ) ≤ x) : lo ≤ line (p :: t) x ∧ line (p :: t) x ≤ hi := by
  induction t generalizing p with
  | nil => exact hb p (by simp)
  | cons q t ih =>
    rcases le_total x (q.1 : ℝ) with e | e
    · rw [line_seg _ _ _ e]
      have a := hb p (by simp)
      have c := hb q (by simp)
      exact ⟨le_chord (inc_head h) h0 e a.1 c.1, chord_le (inc_head h) h0 e a.2 c.2⟩
    · rw [line_skip _ _ _ h e]
      exact ih q (inc_tail h) (fun z hz => hb z (List.mem_cons_of_mem _ hz)) e

theorem line_continuous (t : List (ℚ × ℚ)) (h : Inc t) : Continuous (line t) := by
  induction t with
  | nil => exact continuous_const
  | cons p t ih =>
    cases t with
    | nil => exact continuous_const
    | cons q t =>
      have e : line (p :: q :: t) = fun x => open Classical in
          if x ≤ (q.1 : ℝ) then p.2 + (x - p.1) / (q.1 - p.1) * (q.2 - p.2) else line (q :: t) x := by
        funext x; rw [line]
      rw [e]
      refine Continuous.if_le ?_ (ih (inc_tail h)) continuous_id continuous_const ?_
      · fun_prop
      · intro x hx
        subst hx
        rw [line_first _ _ (inc_tail h), div_self (sub_ne_zero.2 (inc_head h).ne')]
        ring

/-- Ordinates that do not fall. -/
def Up (t : List (ℚ × ℚ)) : Prop := t.IsChain (fun p q => p.2 ≤ q.2)
/-- Ordinates that do not rise. -/
def Down (t : List (ℚ × ℚ)) : Prop := t.IsChain (fun p q => q.2 ≤ p.2)

theorem line_up (t : List (ℚ × ℚ)) (p : ℚ × ℚ) (h : Inc (p :: t)) (hu : Up (p :: t)) {x y : ℝ} (h0 : (p.1 : ℝ) ≤ x)
    (hy : x ≤ y) : line (p :: t) x ≤ line (p :: t) y := by
  induction t generalizing p x with
  | nil => exact le_rfl
  | cons q t ih =>
    have hpq : (p.2 : ℝ) ≤ q.2 := by exact_mod_cast (List.isChain_cons_cons.1 hu).1
    have hd : (0 : ℝ) < q.1 - p.1 := sub_pos.2 (inc_head h)
    rcases le_total y (q.1 : ℝ) with e | e
    · rw [line_seg _ _ _ e, line_seg _ _ _ (hy.trans e)]
      have : (x - p.1) / ((q.1 : ℝ) - p.1) ≤ (y - p.1) / (q.1 - p.1) := by gcongr
      nlinarith [mul_le_mul_of_nonneg_right this (sub_nonneg.2 hpq)]
    · rw [line_skip _ _ _ h e]
      rcases le_total x (q.1 : ℝ) with f | f
      · have h1 : line (p :: q :: t) x ≤ q.2 := by
          rw [line_seg _ _ _ f]
          exact chord_le (inc_head h) h0 f hpq le_rfl
        have h2 := ih q (inc_tail h) hu.tail (x := q.1) le_rfl e
        rw [line_first _ _ (inc_tail h)] at h2
        exact h1.trans h2
      · rw [line_skip _ _ _ h f]
        exact ih q (inc_tail h) hu.tail f hy

/-- The samples upside down. -/
def flip (t : List (ℚ × ℚ)) : List (ℚ × ℚ) := t.map fun p => (p.1, -p.2)

theorem line_flip (t : List (ℚ × ℚ)) (x : ℝ) : line (flip t) x = -line t x := by
  induction t with
  | nil => simp [flip, line]
  | cons p t ih =>
    cases t with
    | nil => simp [flip, line]
    | cons q t =>
      simp only [flip, List.map_cons] at ih ⊢
      rw [line, line]
      simp only
      split
      · push_cast; ring
      · exact ih

theorem inc_flip {t : List (ℚ × ℚ)} (h : Inc t) : Inc (flip t) := by
  unfold Inc flip
  rw [List.isChain_map]
  exact h

theorem line_down (t : List (ℚ × ℚ)) (p : ℚ × ℚ) (h : Inc (p :: t)) (hu : Down (p :: t)) {x y : ℝ} (h0 : (p.1 : ℝ) ≤ x)
    (hy : x ≤ y) : line (p :: t) y ≤ line (p :: t) x := by
  have hup : Up (flip (p :: t)) := by
    unfold Up flip
    rw [List.isChain_map]
    exact hu.imp fun a c hac => neg_le_neg hac
  have := line_up (flip t) (p.1, -p.2) (inc_flip h) hup (x := x) (y := y) h0 hy
  have e : ((p.1, -p.2) :: flip t) = flip (p :: t) := rfl
  rw [e, line_flip, line_flip] at this
  exact neg_le_neg_iff.1 this

end Verif.Passband
