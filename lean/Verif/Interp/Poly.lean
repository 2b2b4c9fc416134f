import Mathlib.LinearAlgebra.Lagrange
import Mathlib.Tactic.LinearCombination
import Mathlib.Algebra.Polynomial.Derivative
import Verif.Interp.Model

/-! Polynomial division by linear factors, divided differences, Hermite data. -/
namespace Verif.Interp
open Polynomial

variable {K : Type} [Field K]

/-- `p` divided by `X - a`. -/
noncomputable def dq (p : K[X]) (a : K) : K[X] := p /ₘ (X - C a)

theorem dq_spec (p : K[X]) (a : K) : p = (X - C a) * dq p a + C (p.eval a) := by
  have := modByMonic_add_div p (X - C a)
  rw [modByMonic_X_sub_C_eq_C_eval] at this
  rw [dq]
  linear_combination -this

theorem dq_unique {p q : K[X]} {a c : K} (h : p = (X - C a) * q + C c) : dq p a = q := by
  have := div_modByMonic_unique q (C c) (monic_X_sub_C a) (f := p)
    ⟨by rw [h]; ring, by
      rw [degree_X_sub_C]
      exact lt_of_le_of_lt degree_C_le (by norm_num)⟩
  exact this.1

theorem dq_comm (p : K[X]) (a b : K) : dq (dq p a) b = dq (dq p b) a := by
  have h1 := dq_spec p a
  have h2 := dq_spec (dq p a) b
  have h3 : dq p b = (X - C a) * dq (dq p a) b + C ((dq p a).eval b) := by
    refine dq_unique (c := (b - a) * (dq p a).eval b + p.eval a) ?_
    simp only [C_add, C_mul, C_sub]
    linear_combination h1 + (X - C a) * h2
  exact (dq_unique h3).symm

theorem dq_eval (p : K[X]) (a b : K) : (dq p a).eval b * (b - a) = p.eval b - p.eval a := by
  have := congrArg (eval b) (dq_spec p a)
  simp only [eval_add, eval_mul, eval_sub, eval_X, eval_C] at this
  linear_combination -this

theorem dq_symm (p : K[X]) (a b : K) : (dq p a).eval b = (dq p b).eval a := by
  by_cases h : a = b
  · rw [h]
  · have h1 := dq_eval p a b
    have h2 := dq_eval p b a
    have h3 : b - a ≠ 0 := sub_ne_zero.mpr (Ne.symm h)
    have : ((dq p a).eval b - (dq p b).eval a) * (b - a) = 0 := by linear_combination h1 + h2
    rcases mul_eq_zero.mp this with h4 | h4
    · exact sub_eq_zero.mp h4
    · exact absurd h4 h3

theorem dq_diag (p : K[X]) (a : K) : (dq p a).eval a = (derivative p).eval a := by
  have := congrArg (fun q => (derivative q).eval a) (dq_spec p a)
  simp only [derivative_add, derivative_mul, derivative_sub, derivative_X, derivative_C, eval_add,
    eval_mul, eval_sub, eval_X, eval_C, eval_one, eval_zero] at this
  linear_combination -this

theorem dq_degree {p : K[X]} {n : Nat} (h : p.degree < (n + 1 : Nat)) (a : K) :
    (dq p a).degree < n := by
  unfold dq
  by_cases h0 : p.natDegree = 0
  · have : p /ₘ (X - C a) = 0 := by
      rw [divByMonic_eq_zero_iff (monic_X_sub_C a), degree_X_sub_C]
      rw [eq_C_of_natDegree_eq_zero h0]
      exact lt_of_le_of_lt degree_C_le (by norm_num)
    rw [this, degree_zero]
    exact WithBot.bot_lt_coe n
  · by_cases hz : p /ₘ (X - C a) = 0
    · rw [hz, degree_zero]; exact WithBot.bot_lt_coe n
    · rw [degree_eq_natDegree hz, natDegree_divByMonic p (monic_X_sub_C a), natDegree_X_sub_C]
      have : p.natDegree < n + 1 := by
        have hp : p ≠ 0 := by rintro rfl; simp at h0
        rw [degree_eq_natDegree hp] at h
        exact_mod_cast h
      exact_mod_cast (by omega : p.natDegree - 1 < n)

/-- Quotient by the factors of nodes `i - j, …, i - 1`. -/
noncomputable def quo (p : K[X]) (z : Nat → K) (i : Nat) : Nat → K[X]
  | 0 => p
  | j + 1 => dq (quo p z i j) (z (i - (j + 1)))

theorem quo_upper (p : K[X]) (z : Nat → K) (i : Nat) :
    ∀ j, quo p z (i + 1) (j + 1) = dq (quo p z i j) (z i)
  | 0 => by simp [quo]
  | j + 1 => by
    rw [show quo p z (i + 1) (j + 1 + 1) = dq (quo p z (i + 1) (j + 1)) (z (i + 1 - (j + 1 + 1))) from rfl,
      quo_upper p z i j, dq_comm, show i + 1 - (j + 1 + 1) = i - (j + 1) by omega]
    rfl

theorem quo_degree {p : K[X]} {z : Nat → K} {i : Nat} : ∀ {j n : Nat}, p.degree < (n + j : Nat) →
    (quo p z i j).degree < n
  | 0, n, h => by simpa [quo] using h
  | j + 1, n, h => by
    refine dq_degree (quo_degree (j := j) (n := n + 1) ?_) _
    rwa [show n + 1 + j = n + (j + 1) by ring]

/-- The polynomial with given values and derivatives at distinct nodes. -/
theorem hermite_exists {n : Nat} (x y d : Nat → K) (hx : ∀ i < n, ∀ j < n, x i = x j → i = j) :
    ∃ p : K[X], p.degree < (2 * n : Nat) ∧ ∀ i < n, p.eval (x i) = y i ∧
      (derivative p).eval (x i) = d i := by
  classical
  let L := fun i => Lagrange.basis (Finset.range n) x i
  have hinj : Set.InjOn x (Finset.range n) := by
    intro i hi j hj h
    simp only [Finset.coe_range, Set.mem_Iio] at hi hj
    exact hx i hi j hj h
  let A := fun i => (1 - C (2 * (derivative (L i)).eval (x i)) * (X - C (x i))) * C (y i) +
    (X - C (x i)) * C (d i)
  have hA : ∀ i k, (A i).eval (x k) =
      (1 - 2 * (derivative (L i)).eval (x i) * (x k - x i)) * y i + (x k - x i) * d i := by
    intro i k; simp [A]
  have hA' : ∀ i k, (derivative (A i)).eval (x k) =
      -(2 * (derivative (L i)).eval (x i)) * y i + d i := by
    intro i k
    simp [A, derivative_mul]
  have hL1 : ∀ i < n, (L i).eval (x i) = 1 := fun i hi =>
    Lagrange.eval_basis_self hinj (by simpa using hi)
  have hL0 : ∀ i k, i ≠ k → k < n → (L i).eval (x k) = 0 := fun i k h hk =>
    Lagrange.eval_basis_of_ne h (by simpa using hk)
  refine ⟨∑ i ∈ Finset.range n, A i * (L i * L i), ?_, ?_⟩
  · by_cases hn : n = 0
    · subst hn; simp
    refine lt_of_le_of_lt (degree_sum_le _ _) ?_
    rw [Finset.sup_lt_iff (WithBot.bot_lt_coe _)]
    intro i hi
    have dA : (A i).degree ≤ 1 := by
      have e : A i = C (d i - 2 * (derivative (L i)).eval (x i) * y i) * X +
          C ((1 + 2 * (derivative (L i)).eval (x i) * x i) * y i - x i * d i) := by
        simp only [A, C_mul, C_sub, C_add, C_1]
        ring
      rw [e]
      exact degree_linear_le
    have dL : (L i).degree = ((n - 1 : Nat) : WithBot Nat) := by
      have := Lagrange.degree_basis hinj hi
      simpa using this
    rw [degree_mul, degree_mul, dL]
    calc (A i).degree + (((n - 1 : Nat) : WithBot Nat) + ((n - 1 : Nat) : WithBot Nat))
        ≤ ((1 : Nat) : WithBot Nat) + (((n - 1 : Nat) : WithBot Nat) + ((n - 1 : Nat) : WithBot Nat)) := by
          gcongr
          exact_mod_cast dA
      _ = ((1 + (n - 1 + (n - 1)) : Nat) : WithBot Nat) := by push_cast; rfl
      _ < ((2 * n : Nat) : WithBot Nat) := by exact_mod_cast (by omega)
  · intro k hk
    constructor
    · rw [eval_finset_sum, Finset.sum_eq_single k]
      · rw [eval_mul, eval_mul, hL1 k hk, hA]; ring
      · intro i _ hik
        rw [eval_mul, eval_mul, hL0 i k hik hk]; ring
      · intro h; exact absurd (Finset.mem_range.mpr hk) h
    · rw [derivative_sum, eval_finset_sum, Finset.sum_eq_single k]
      · simp only [derivative_mul, eval_add, eval_mul, hL1 k hk, hA, hA']
        ring
      · intro i _ hik
        simp only [derivative_mul, eval_add, eval_mul, hL0 i k hik hk]
        ring
      · intro h; exact absurd (Finset.mem_range.mpr hk) h

end Verif.Interp
