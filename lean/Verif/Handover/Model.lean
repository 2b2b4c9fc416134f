import Verif.Estimation.Props

/-
The covariance a batch solution hands to the sequential filter, and the filter's own starting covariance
(src/pod/estimation/wls.rs 220-246, src/pod/estimation/sequential.rs 78-103). The typed 3×3 blocks are those of the
external crate `affn`; what is used of them: `from_upper` keeps the upper triangle and mirrors it, `from_array` keeps
all entries, `to_row_major` of three blocks is the 6×6 matrix with the transposed cross block below.
-/
namespace Verif.Handover
open Matrix Verif.Estimation

abbrev Mat3 := Matrix (Fin 3) (Fin 3) ℝ

/-- `SymmetricFrameMatrix3::from_upper`. -/
def fromUpper (a : Mat3) : Mat3 := fun i j => if i ≤ j then a i j else a j i

/-- `StateCovariance<GCRS>` (`from_blocks`). -/
structure StateCov where
  rr : Mat3
  rv : Mat3
  vv : Mat3

/-- Index of a velocity component. -/
def vel (i : Fin 3) : Fin 6 := ⟨i + 3, by omega⟩
/-- Index of a position component. -/
def pos (i : Fin 3) : Fin 6 := ⟨i, by omega⟩

/-- `to_row_major`. -/
def StateCov.rowMajor (s : StateCov) : Mat6 := fun i j =>
  if hi : (i : Nat) < 3 then
    if hj : (j : Nat) < 3 then s.rr ⟨i, hi⟩ ⟨j, hj⟩ else s.rv ⟨i, hi⟩ ⟨j - 3, by omega⟩
  else
    if hj : (j : Nat) < 3 then s.rv ⟨j, hj⟩ ⟨i - 3, by omega⟩ else s.vv ⟨i - 3, by omega⟩ ⟨j - 3, by omega⟩

/-- `WlsResult::to_state_covariance` (wls.rs 220-246). -/
def toStateCovariance (r : WlsResult) : Option StateCov :=
  if h : r.n = 6 then
    let c : Fin 6 → Fin 6 → ℝ := fun i j => r.covariance (i.cast h.symm) (j.cast h.symm)
    some ⟨fromUpper fun i j => c (pos i) (pos j), fun i j => c (pos i) (vel j), fromUpper fun i j => c (vel i) (vel j)⟩
  else none

/-- `StateCovariance::diagonal_from_sigmas` of `affn`. -/
def diagonalFromSigmas (p v : Fin 3 → ℝ) : StateCov :=
  ⟨Matrix.diagonal fun i => p i * p i, 0, Matrix.diagonal fun i => v i * v i⟩

/-- `OrbitEkf::new` (sequential.rs 80-82). -/
def newFilter (state : Vec6) (cov : StateCov) : Ekf := ⟨state, cov.rowMajor⟩

/-- `OrbitEkf::from_stddevs` (sequential.rs 86-101). -/
def fromStddevs (state : Vec6) (p v : Fin 3 → ℝ) : Ekf := newFilter state (diagonalFromSigmas p v)

end Verif.Handover
