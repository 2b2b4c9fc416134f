import Mathlib.Algebra.Order.Field.Basic
import Mathlib.Order.Interval.Set.Defs

/-
Specification of crossing searches, without reference to the model.
-/
namespace Verif.Search.Spec

variable {F : Type} [Field F] [LinearOrder F]

/-- The values lie on different sides of the threshold (a value on it counts as above). -/
def Opposite (x y : F) : Prop := (x < 0 ∧ 0 ≤ y) ∨ (0 ≤ x ∧ y < 0)

/-- `r` is a root of `g` as far as the two tolerances tell: the residual is at most `resTol`, or `g`
changes sides between `r` and a point of `[lo, hi]` at most `12 timeTol` away. -/
def Located (g : F → F) (lo hi resTol timeTol r : F) : Prop :=
  |g r| ≤ resTol ∨ ∃ y, lo ≤ y ∧ y ≤ hi ∧ |y - r| ≤ 12 * timeTol ∧ Opposite (g r) (g y)

/-- What the label `+1` means at `t`: there are two instants around `t`, at most `gap` apart, with `g`
not above `eps` at the first, not below `-eps` at the second, and really below zero at the first or
above zero at the second. -/
def Upward (g : F → F) (lo hi eps gap t : F) : Prop :=
  ∃ x y, lo ≤ x ∧ x ≤ t ∧ t ≤ y ∧ y ≤ hi ∧ x < y ∧ y - x ≤ gap ∧
    g x ≤ eps ∧ -eps ≤ g y ∧ (g x < 0 ∨ 0 < g y)

/-- What the label `-1` means: the same for `-g`. -/
def Downward (g : F → F) (lo hi eps gap t : F) : Prop := Upward (fun x => -g x) lo hi eps gap t

/-- A label and its meaning. -/
def Labelled (g : F → F) (lo hi eps gap t : F) (direction : Int) : Prop :=
  (direction = 1 ∧ Upward g lo hi eps gap t) ∨ (direction = -1 ∧ Downward g lo hi eps gap t)

end Verif.Search.Spec
