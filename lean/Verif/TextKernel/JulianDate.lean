import Mathlib.Data.List.Induction
import Mathlib.Tactic.Linarith
import Mathlib.Tactic.FieldSimp
import Mathlib.Tactic.Ring
import Mathlib.Tactic.IntervalCases
import Mathlib.Tactic.Positivity
import Verif.TextKernel.Lemmas
import Verif.TextKernel.ClockModel

/-
Property C37: Julian Dates of calendar dates in leap-second kernels.
-/
namespace Verif.TextKernel.Props
open Verif.Text Spec

/-! ### C37 -/

/-- Gregorian leap years. -/
def leap (y : Int) : Bool := (y % 4 = 0 ∧ y % 100 ≠ 0) ∨ y % 400 = 0

def monthLength (y : Int) (m : Nat) : Int :=
  match m with
  | 2 => if leap y then 29 else 28
  | 4 | 6 | 9 | 11 => 30
  | _ => 31

/-- Days from 1 January 1900 to 1 January of the year `1900 + n`. -/
def daysToYear : Nat → Int
  | 0 => 0
  | n + 1 => daysToYear n + (if leap (1900 + n) then 366 else 365)

/-- Days of the months before month `m + 1`. -/
def daysToMonth (y : Int) : Nat → Int
  | 0 => 0
  | m + 1 => daysToMonth y m + monthLength y (m + 1)

/-- Twice the Julian Date of the start of a civil day: 1 January 1900 0h is 2415020.5. -/
def julianDate2 (y : Nat) (m d : Nat) : Int :=
  2 * (daysToYear (y - 1900) + daysToMonth y (m - 1) + (d - 1)) + 4830041

theorem leap_mod {n : Nat} (h1 : 1 ≤ n) (h2 : n ≤ 199) : leap (1900 + (n : Int)) = decide (n % 4 = 0) := by
  unfold leap
  rw [decide_eq_decide]
  omega

theorem daysToYear_eq : ∀ n : Nat, 1 ≤ n → n ≤ 200 → daysToYear n = 365 * n + ((n : Int) - 1) / 4 := by
  intro n h1
  induction n with
  | zero => omega
  | succ n ih =>
    intro h2
    rw [daysToYear]
    by_cases h0 : n = 0
    · subst h0
      decide
    · rw [ih (by omega) (by omega), leap_mod (by omega) (by omega)]
      by_cases h4 : n % 4 = 0
      · simp only [h4, decide_true, if_true]
        push_cast
        omega
      · simp only [h4, decide_false, Bool.false_eq_true, if_false]
        push_cast
        omega

/-- For every date of the years 1901 to 2099 the Julian Date is the true one. -/
theorem gregorian_jd_correct (y m d : Nat) (hy : 1901 ≤ y ∧ y ≤ 2099) (hm : 1 ≤ m ∧ m ≤ 12) :
    gregorianToJd2 y m d = julianDate2 y m d := by
  obtain ⟨n, rfl⟩ : ∃ n, y = 1900 + n := ⟨y - 1900, by omega⟩
  have hl := leap_mod (n := n) (by omega) (by omega)
  have hd := daysToYear_eq n (by omega) (by omega)
  unfold julianDate2 gregorianToJd2
  rw [Nat.add_sub_cancel_left, hd]
  dsimp only
  have ht1 : ∀ a : Int, 0 ≤ a → a.tdiv 4 = a / 4 := fun a ha => Int.tdiv_eq_ediv_of_nonneg ha
  have ht2 : ∀ a : Int, 0 ≤ a → a.tdiv 9 = a / 9 := fun a ha => Int.tdiv_eq_ediv_of_nonneg ha
  have ht3 : ∀ a : Int, 0 ≤ a → a.tdiv 12 = a / 12 := fun a ha => Int.tdiv_eq_ediv_of_nonneg ha
  obtain ⟨hm1, hm2⟩ := hm
  obtain ⟨q, hq⟩ : ∃ q, n = 4 * q ∨ n = 4 * q + 1 ∨ n = 4 * q + 2 ∨ n = 4 * q + 3 := ⟨n / 4, by omega⟩
  have hF : monthLength (((1900 + n : Nat)) : Int) 2 = if n = 4 * q then 29 else 28 := by
    unfold monthLength
    push_cast
    simp only [hl]
    by_cases h : n = 4 * q
    · rw [decide_eq_true (by omega)]; simp [h]
    · rw [decide_eq_false (by omega)]; simp [h]
  interval_cases m
  all_goals
    simp only [daysToMonth, Nat.reduceSub, Nat.reduceAdd, hF]
    try simp only [monthLength]
    rw [ht1 _ (by push_cast; omega)]
    push_cast
    rcases hq with rfl | rfl | rfl | rfl
    all_goals
      push_cast
      try simp only [if_true]
      try rw [if_neg (by omega)]
      omega

example : gregorianToJd2 2000 1 1 = 2 * 2451544 + 1 := by decide
/-- The range is needed: 1 March 2100 is off by one day. -/
theorem gregorian_jd_fails_2100 : gregorianToJd2 2100 3 1 ≠ julianDate2 2100 3 1 := by decide +kernel

/-- An epoch written as in leap-second kernels is read as the true instant of that date, in seconds after
the Julian Date 2451545. -/
theorem epoch_text_read (y m d : Nat) (hy : 1901 ≤ y ∧ y ≤ 2099) (hm : 1 ≤ m ∧ m ≤ 12) (hd : d < 100) :
    parseEpochText ('@' :: (natStr y ++ '-' :: (months.getD (m - 1) [] ++ '-' :: natStr d))) =
      .ok (.num ((julianDate2 y m d / 2 - 2451545) * 86400)) := by
  have digit : ∀ n, (natStr n).all Char.isDigit = true := fun n => (natStr_digits n).1
  have nodash : ∀ n, '-' ∉ natStr n := by
    intro n hn
    have := digit n
    rw [List.all_eq_true] at this
    have := this _ hn
    simp at this
  have hmon : '-' ∉ months.getD (m - 1) [] ∧ monthNumber (months.getD (m - 1) []) = .ok (m : Int) := by
    obtain ⟨h1, h2⟩ := hm
    interval_cases m <;> decide +kernel
  have hval : ∀ n, digitsVal (natStr n) = n := fun n => (natStr_digits n).2.2
  have hint : ∀ n, n ≤ 2 ^ 31 - 1 → parseInt (2 ^ 31 - 1) (natStr n) = some (n : Int) := by
    intro n hn
    rw [parseInt_of (digit n) (natStr_digits n).2.1 (by rw [hval]; exact hn), hval]
  have htrim : trim ('@' :: (natStr y ++ '-' :: (months.getD (m - 1) [] ++ '-' :: natStr d))) =
      '@' :: (natStr y ++ '-' :: (months.getD (m - 1) [] ++ '-' :: natStr d)) := by
    apply trim_tight
    constructor
    · intro c hc
      simp at hc
      rw [← hc]; decide
    · intro c hc
      obtain ⟨x, r, hx⟩ : ∃ x r, natStr d = r ++ [x] :=
        ⟨_, _, (List.dropLast_append_getLast (natStr_digits d).2.1).symm⟩
      have hxd : x.isDigit = true := by
        have := digit d
        rw [List.all_eq_true] at this
        exact this x (by rw [hx]; simp)
      rw [hx] at hc
      have : '@' :: (natStr y ++ '-' :: (months.getD (m - 1) [] ++ '-' :: (r ++ [x]))) =
          ('@' :: (natStr y ++ '-' :: (months.getD (m - 1) [] ++ '-' :: r))) ++ [x] := by simp
      rw [this] at hc
      simp only [List.getLast?_append_cons, List.getLast?_singleton, Option.some.injEq] at hc
      rw [← hc]
      exact isDigit_not_ws hxd
  unfold parseEpochText
  rw [htrim]
  simp only
  rw [splitChar_append (nodash y), splitChar_append hmon.1, splitChar_single (nodash d)]
  simp only
  rw [hint y (by omega), hmon.2]
  simp only
  rw [hint d (by omega)]
  simp only
  rw [gregorian_jd_correct y m d hy hm]
  rfl

end Verif.TextKernel.Props
