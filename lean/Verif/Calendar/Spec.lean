import Mathlib.Tactic.Ring
import Mathlib.Tactic.Linarith
import Mathlib.Tactic.IntervalCases

/-
Specification: the proleptic Gregorian calendar from year 0 on, by counting days. Nothing here comes from
the code.
-/
namespace Verif.Calendar

/-- Leap years. -/
def Leap (y : Nat) : Prop := (y % 4 = 0 ∧ y % 100 ≠ 0) ∨ y % 400 = 0

instance (y : Nat) : Decidable (Leap y) := by unfold Leap; infer_instance

/-- Days of month `m` (1 to 12). -/
def monthLength (y m : Nat) : Nat :=
  match m with
  | 2 => if Leap y then 29 else 28
  | 4 | 6 | 9 | 11 => 30
  | _ => 31

/-- Days of the years before `y`. -/
def daysBeforeYear : Nat → Nat
  | 0 => 0
  | y + 1 => daysBeforeYear y + (if Leap y then 366 else 365)

/-- Days of the months before month `m + 1`. -/
def daysOfMonths (y : Nat) : Nat → Nat
  | 0 => 0
  | m + 1 => daysOfMonths y m + monthLength y (m + 1)

/-- A date of the calendar. -/
structure Valid (y m d : Nat) : Prop where
  m1 : 1 ≤ m
  m12 : m ≤ 12
  d1 : 1 ≤ d
  dl : d ≤ monthLength y m

/-- The Julian day number of a date (the Julian Date of its noon): 1 January of year 0 is day 1721060. -/
def dayNumber (y m d : Nat) : Nat := 1721060 + daysBeforeYear y + daysOfMonths y (m - 1) + (d - 1)

/-- The epoch J2000 and the start of the Modified Julian Date, as a check of the constant. -/
theorem dayNumber_anchor : dayNumber 0 1 1 = 1721060 := rfl

theorem daysBeforeYear_eq (y : Nat) : (daysBeforeYear y : Int) = 365 * y + (y + 3) / 4 - (y + 99) / 100 + (y + 399) / 400 := by
  induction y with
  | zero => decide
  | succ y ih =>
    unfold daysBeforeYear
    push_cast
    rw [ih]
    by_cases h : Leap y
    · rw [if_pos h]
      unfold Leap at h
      omega
    · rw [if_neg h]
      unfold Leap at h
      omega

end Verif.Calendar
