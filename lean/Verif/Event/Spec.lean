import Mathlib.Algebra.Order.Field.Basic
import Mathlib.Topology.Instances.Real.Lemmas

/-! Specification vocabulary for threshold searches. Independent of the model. -/
namespace Verif.Event.Spec

variable {F : Type} [Field F] [LinearOrder F]

/-- The instant belongs to one of the (closed) periods. -/
def InSome (ps : List (F × F)) (t : F) : Prop := ∃ p ∈ ps, p.1 ≤ t ∧ t ≤ p.2

/-- A list of periods is well formed for the window `[a, b]`: every period is non-degenerate and
inside the window, and each period ends strictly before every later one starts. -/
def WellFormed (a b : F) (ps : List (F × F)) : Prop :=
  (∀ p ∈ ps, a ≤ p.1 ∧ p.1 < p.2 ∧ p.2 ≤ b) ∧ ps.Pairwise (fun p q => p.2 < q.1)

/-- Given the state at the start of the window and the times of the direction changes, the state
at `t`: flipped once per change strictly before `t`. -/
def stateAt (startAbove : Bool) (times : List F) (t : F) : Bool :=
  times.foldl (fun s c => if c < t then !s else s) startAbove

/-- `k`-th cell of the sampling grid of the window `[a, b]`: from `a + k·step` to the next grid
point, cut at `b`. -/
def cellLo (a step : F) (k : Nat) : F := a + k * step
def cellHi (a b step : F) (k : Nat) : F := min (a + (k + 1) * step) b

/-- `h` has a sign change over the cell. -/
def SignChange (h : F → F) (lo hi : F) : Prop := (h lo < 0 ∧ 0 < h hi) ∨ (0 < h lo ∧ h hi < 0)

/-! ### Real functions -/

/-- The sampling step resolves `g` on the window `[a, b]`: `g` is continuous there, no sample of
the grid (nor the window end) is exactly zero, and a grid cell contains at most one zero. -/
structure Resolved (g : ℝ → ℝ) (a b step : ℝ) : Prop where
  cont : ContinuousOn g (Set.Icc a b)
  grid : ∀ k : ℕ, a + k * step ≤ b → g (a + k * step) ≠ 0
  last : g b ≠ 0
  unique : ∀ (k : ℕ) (z z' : ℝ), z ∈ Set.Icc (cellLo a step k) (cellHi a b step k) →
    z' ∈ Set.Icc (cellLo a step k) (cellHi a b step k) → g z = 0 → g z' = 0 → z = z'

/-- Distinct zeros of `g` in the window are at least `d` apart. -/
def Separated (g : ℝ → ℝ) (a b d : ℝ) : Prop :=
  ∀ z ∈ Set.Icc a b, ∀ z' ∈ Set.Icc a b, g z = 0 → g z' = 0 → z ≠ z' → d ≤ |z - z'|

/-- The root finder is accurate to `tol` on brackets of `g` inside the window: on a bracket with a
sign change it returns a point of the bracket within `tol` of a zero lying in the bracket. -/
def Accurate (root : (lo hi flo fhi : ℝ) → (ℝ → ℝ) → Option ℝ) (g : ℝ → ℝ) (a b tol : ℝ) : Prop :=
  ∀ lo hi, a ≤ lo → lo < hi → hi ≤ b → SignChange g lo hi →
    ∃ r z, root lo hi (g lo) (g hi) g = some r ∧ r ∈ Set.Icc lo hi ∧ z ∈ Set.Icc lo hi ∧
      g z = 0 ∧ |r - z| ≤ tol

/-- Every zero of `g` in the window is a crossing: it lies in a grid cell over which `g` changes
sign (with `Resolved`, this excludes tangential contacts). -/
def AllCross (g : ℝ → ℝ) (a b step : ℝ) : Prop :=
  ∀ z ∈ Set.Icc a b, g z = 0 → ∃ k : ℕ, z ∈ Set.Icc (cellLo a step k) (cellHi a b step k) ∧
    cellLo a step k < b ∧ SignChange g (cellLo a step k) (cellHi a b step k)

/-! ### Period algebra of the external crate -/

/-- Contract assumed of the external period complement and intersection for the window `[a, b]`:
correct membership away from period ends, complements well formed with no new interior ends. -/
structure AlgebraOK (complement : ℝ × ℝ → List (ℝ × ℝ) → List (ℝ × ℝ))
    (intersect : List (ℝ × ℝ) → List (ℝ × ℝ) → List (ℝ × ℝ)) (a b : ℝ) : Prop where
  compl_wf : ∀ ps, WellFormed a b ps → WellFormed a b (complement (a, b) ps)
  compl_ends : ∀ ps, WellFormed a b ps → ∀ q ∈ complement (a, b) ps,
    (q.1 = a ∨ ∃ p ∈ ps, q.1 = p.2) ∧ (q.2 = b ∨ ∃ p ∈ ps, q.2 = p.1)
  compl_mem : ∀ ps, WellFormed a b ps → ∀ t, a < t → t < b → (∀ p ∈ ps, t ≠ p.1 ∧ t ≠ p.2) →
    (InSome (complement (a, b) ps) t ↔ ¬ InSome ps t)
  inter_mem : ∀ ps qs, WellFormed a b ps → WellFormed a b qs → ∀ t,
    (∀ p ∈ ps, t ≠ p.1 ∧ t ≠ p.2) → (∀ q ∈ qs, t ≠ q.1 ∧ t ≠ q.2) →
    (InSome (intersect ps qs) t ↔ InSome ps t ∧ InSome qs t)

end Verif.Event.Spec
