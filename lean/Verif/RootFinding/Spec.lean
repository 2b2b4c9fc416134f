import Mathlib.Order.Interval.Set.UnorderedInterval
import Mathlib.Order.Monotone.Defs
import Mathlib.Algebra.Order.Field.Basic

/-
Notions used to state what root and extremum refinement must deliver. Nothing here refers to the
model.
-/
namespace Verif.RootFinding.Spec

variable {F : Type} [Field F] [LinearOrder F]

/-- The values of `f` at `x` and `y` do not lie strictly on one side of zero. -/
def SignChange (f : F → F) (x y : F) : Prop := (f x ≤ 0 ∧ 0 ≤ f y) ∨ (f y ≤ 0 ∧ 0 ≤ f x)

/-- What `f64::signum` guarantees on non-zero numbers. Nothing is asked of zero. -/
def IsSignum (sg : F → Int) : Prop := (∀ x, 0 < x → sg x = 1) ∧ (∀ x, x < 0 → sg x = -1)

/-- `m` is the unique valley of `f` on `[a, b]`. -/
def Valley (f : F → F) (a b m : F) : Prop :=
  a ≤ m ∧ m ≤ b ∧ StrictAntiOn f (Set.Icc a m) ∧ StrictMonoOn f (Set.Icc m b)

/-- `m` is the unique peak of `f` on `[a, b]`. -/
def Peak (f : F → F) (a b m : F) : Prop :=
  a ≤ m ∧ m ≤ b ∧ StrictMonoOn f (Set.Icc a m) ∧ StrictAntiOn f (Set.Icc m b)

/-- Local shape around a peak `m`: rising for two steps before, falling for two steps after. -/
def LocalPeak (f : F → F) (start tEnd step m : F) : Prop :=
  StrictMonoOn f (Set.Icc (max start (m - 2 * step)) m) ∧
  StrictAntiOn f (Set.Icc m (min tEnd (m + 2 * step)))

/-- Local shape around a valley `m`: falling for two steps before, rising for two steps after. -/
def LocalValley (f : F → F) (start tEnd step m : F) : Prop :=
  StrictAntiOn f (Set.Icc (max start (m - 2 * step)) m) ∧
  StrictMonoOn f (Set.Icc m (min tEnd (m + 2 * step)))

end Verif.RootFinding.Spec
