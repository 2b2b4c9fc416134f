import Mathlib.LinearAlgebra.Matrix.DotProduct
import Mathlib.LinearAlgebra.Matrix.Symmetric
import Mathlib.Data.Real.Basic

/-
Weighted least squares: the cost of a parameter vector. Independent of `Verif.Estimation.Model`.
-/
namespace Verif.Estimation.Spec
open Matrix

/-- A measurement: partial derivatives, measured minus predicted, standard deviation. -/
structure Row (n : Nat) where
  h : Fin n → ℝ
  r : ℝ
  σ : ℝ

/-- The weighted sum of squared residuals that remain after moving the parameters by `x`. -/
noncomputable def cost {n : Nat} (rows : List (Row n)) (x : Fin n → ℝ) : ℝ :=
  (rows.map fun w => ((w.r - w.h ⬝ᵥ x) / w.σ) ^ 2).sum

/-- Symmetric with a positive, or non-negative, quadratic form. -/
def PosDef {n : Nat} (A : Matrix (Fin n) (Fin n) ℝ) : Prop := A.IsSymm ∧ ∀ x, x ≠ 0 → 0 < x ⬝ᵥ A *ᵥ x
def PosSemi {n : Nat} (A : Matrix (Fin n) (Fin n) ℝ) : Prop := A.IsSymm ∧ ∀ x, 0 ≤ x ⬝ᵥ A *ᵥ x

/-- The information matrix of measurements: `Σ h hᵀ / σ²`. -/
noncomputable def information {n : Nat} (rows : List (Row n)) : Matrix (Fin n) (Fin n) ℝ :=
  (rows.map fun w => (1 / w.σ ^ 2) • vecMulVec w.h w.h).sum

/-- A parameter direction no measurement sees. -/
def Unseen {n : Nat} (rows : List (Row n)) (x : Fin n → ℝ) : Prop := x ≠ 0 ∧ ∀ w ∈ rows, w.h ⬝ᵥ x = 0

end Verif.Estimation.Spec
