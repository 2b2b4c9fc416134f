import Verif.Pod.Model
import Mathlib.MeasureTheory.Integral.IntervalIntegral.FundThmCalculus
import Mathlib.Analysis.Calculus.FDeriv.Basic

/-
What the precise-orbit layer is supposed to compute, stated without the functions of the model.
-/
namespace Verif.Pod.Spec
open Finset

/-- A symmetric positive semi-definite table of size `n`. -/
def Covariance (q : Nat → Nat → ℝ) (n : Nat) : Prop :=
  (∀ i j, q i j = q j i) ∧ ∀ x : Nat → ℝ, 0 ≤ ∑ i ∈ range n, ∑ j ∈ range n, x i * q i j * x j

/-- A white noise: its spectral density, and what an impulse does to the state a time later. -/
structure Source where
  density : ℝ
  response : ℝ → Nat → ℝ

/-- The covariance that independent white noises build up in the time `dt`. -/
noncomputable def accumulated (l : List Source) (dt : ℝ) (i j : Nat) : ℝ :=
  (l.map fun s => ∫ t in (0 : ℝ)..dt, s.density * (s.response t i * s.response t j)).sum

/-- White acceleration of one axis: it moves the position by `t` and the velocity by one. -/
def accelerationNoise (q : ℝ) (axis : Nat) : Source :=
  ⟨q, fun t i => if i = axis then t else if i = axis + 3 then 1 else 0⟩

/-- The noise that drives a first-order Gauss–Markov process of standard deviation `σ` and time constant `τ`. -/
noncomputable def markovNoise (σ τ : ℝ) (idx : Nat) : Source :=
  ⟨2 * σ ^ 2 / τ, fun t i => if i = idx then Real.exp (-t / τ) else 0⟩

/-- A random walk. -/
def walkNoise (s : ℝ) (idx : Nat) : Source := ⟨s ^ 2, fun _ i => if i = idx then 1 else 0⟩

/-- The place of the second scale parameter. -/
def srpIndex (m : NoiseModel) : Nat := if m.drag.isSome then 7 else 6

/-- The place of the first empirical acceleration. -/
def empiricalIndex (m : NoiseModel) : Nat := srpIndex m + (if m.srp.isSome then 1 else 0)

/-- All noises of a model in the documented layout. -/
noncomputable def sources (m : NoiseModel) : List Source :=
  [accelerationNoise (m.psd 0) 0, accelerationNoise (m.psd 1) 1, accelerationNoise (m.psd 2) 2] ++
  (m.drag.toList.map fun g => markovNoise g.sigma g.tau 6) ++
  (m.srp.toList.map fun g => markovNoise g.sigma g.tau (srpIndex m)) ++
  (m.empirical.toList.flatMap fun s =>
    [walkNoise (s 0) (empiricalIndex m), walkNoise (s 1) (empiricalIndex m + 1), walkNoise (s 2) (empiricalIndex m + 2)])

/-- What becomes of a state vector when time passes without noise. -/
noncomputable def advance (m : NoiseModel) (b : ℝ) (v : Nat → ℝ) (i : Nat) : ℝ :=
  if i < 3 then v i + b * v (i + 3)
  else if i = 6 ∧ m.drag.isSome then (m.drag.elim 1 fun g => Real.exp (-b / g.tau)) * v i
  else if i = srpIndex m ∧ m.srp.isSome then (m.srp.elim 1 fun g => Real.exp (-b / g.tau)) * v i
  else v i

/-- Every parameter is one the documentation allows. -/
def Valid (m : NoiseModel) : Prop :=
  (∀ i, 0 ≤ m.psd i) ∧ (∀ g, m.drag = some g → 0 ≤ g.sigma ∧ 0 < g.tau) ∧
  (∀ g, m.srp = some g → 0 ≤ g.sigma ∧ 0 < g.tau) ∧ (∀ s, m.empirical = some s → ∀ i, 0 ≤ s i)

/-- The coordinate of the ionospheric pierce point and the local time there, in semicircles and seconds, from IS-GPS-200
(20.3.3.5.2.5). -/
structure Pierce where
  angle : ℝ
  lat : ℝ
  lon : ℝ
  geomagnetic : ℝ
  time : ℝ

/-- The standard's equations for the pierce point of a ray of elevation `e` and azimuth `a` (semicircles) from a user
at `(φ, λ)` at time `t`. -/
structure IsPierce (e a φ l t : ℝ) (p : Pierce) : Prop where
  angle : p.angle = 0.0137 / (e + 0.11) - 0.022
  lat : p.lat = if 0.416 < φ + p.angle * Real.cos (Real.pi * a) then 0.416
    else if φ + p.angle * Real.cos (Real.pi * a) < -0.416 then -0.416 else φ + p.angle * Real.cos (Real.pi * a)
  lon : p.lon = l + p.angle * Real.sin (Real.pi * a) / Real.cos (Real.pi * p.lat)
  geomagnetic : p.geomagnetic = p.lat + 0.064 * Real.cos (Real.pi * (p.lon - 1.617))
  time : 0 ≤ p.time ∧ p.time < 86400 ∧ ∃ k : ℤ, 43200 * p.lon + t = p.time + 86400 * k

/-- A cubic in the geomagnetic latitude. -/
noncomputable def cubic (c : Fin 4 → ℝ) (x : ℝ) : ℝ := ∑ n : Fin 4, c n * x ^ (n : Nat)

/-- Amplitude and phase. -/
noncomputable def amplitude (alpha : Fin 4 → ℝ) (p : Pierce) : ℝ :=
  if cubic alpha p.geomagnetic < 0 then 0 else cubic alpha p.geomagnetic

/-- The phase. -/
noncomputable def phase (beta : Fin 4 → ℝ) (p : Pierce) : ℝ :=
  2 * Real.pi * (p.time - 50400) / (if cubic beta p.geomagnetic < 72000 then 72000 else cubic beta p.geomagnetic)

/-- The obliquity factor. -/
noncomputable def obliquity (e : ℝ) : ℝ := 1.0 + 16.0 * (0.53 - e) ^ 3

/-- The delay in seconds, with the standard's polynomial for the cosine. -/
noncomputable def broadcastDelay (alpha beta : Fin 4 → ℝ) (e : ℝ) (p : Pierce) : ℝ :=
  if |phase beta p| < 1.57 then
    obliquity e * (5.0e-9 + amplitude alpha p * (1 - phase beta p ^ 2 / 2 + phase beta p ^ 4 / 24))
  else obliquity e * 5.0e-9

end Verif.Pod.Spec
