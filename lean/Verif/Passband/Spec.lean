import Mathlib.Analysis.SpecialFunctions.Integrals.Basic

/-!
# What a sampled curve is

Independent of the model: a curve `f` drawn through samples `t` (abscissa, ordinate).
-/

namespace Verif.Passband.Spec

/-- Between two neighbouring samples the curve is the chord. -/
def Chords (t : List (ℚ × ℚ)) (f : ℝ → ℝ) : Prop :=
  ∀ p q, [p, q] <:+: t → ∀ x : ℝ, (p.1 : ℝ) ≤ x → x ≤ q.1 →
    f x * (q.1 - p.1) = p.2 * (q.1 - x) + q.2 * (x - p.1)

/-- The curve goes up to the abscissa `k` and down after it. -/
def SinglePeak (f : ℝ → ℝ) (k : ℝ) : Prop := MonotoneOn f (Set.Iic k) ∧ AntitoneOn f (Set.Ici k)

/-- The wavelengths where at least half the light passes are those from `lo` to `hi`. -/
def HalfWidth (f : ℝ → ℝ) (lo hi : ℝ) : Prop := ∀ x, 1 / 2 ≤ f x ↔ lo ≤ x ∧ x ≤ hi

/-- Mean wavelength of the curve over `[a, b]` under a flat spectrum. -/
noncomputable def mean (f : ℝ → ℝ) (a b : ℝ) : ℝ := (∫ x in a..b, x * f x) / ∫ x in a..b, f x

/-- The five bands of Bessell (1990). -/
inductive Band where
  | U | B | V | R | I
deriving DecidableEq

/-- Samples every `step` nanometres from `start` on, in thousandths. -/
def every (start step : ℚ) : List ℕ → List (ℚ × ℚ)
  | [] => []
  | y :: ys => (start, y / 1000) :: every (start + step) step ys

/-- The published throughputs (Bessell 1990, table 2). -/
def published : Band → List (ℚ × ℚ)
  | .U => every 300 5 [0, 16, 68, 167, 287, 423, 560, 673, 772, 841, 905, 943, 981, 993, 1000, 989, 916, 804, 625, 423, 238, 114, 51, 19, 0]
  | .B => every 360 10 [0, 30, 134, 567, 920, 978, 1000, 978, 935, 853, 740, 640, 536, 424, 325, 235, 150, 95, 43, 9, 0]
  | .V => every 470 10 [0, 30, 163, 458, 780, 967, 1000, 973, 898, 792, 684, 574, 461, 359, 270, 197, 135, 81, 45, 25, 17, 13, 9, 0]
  | .R => every 550 10 [0, 230, 740, 910, 980, 1000, 980, 960, 930, 900, 860, 810, 780, 720, 670, 610, 560, 510, 460, 400] ++ every 750 50 [350, 140, 30, 0]
  | .I => every 700 10 [0, 24, 232, 555, 785, 910, 965, 985, 990, 995, 1000, 1000, 990, 980, 950, 910, 860, 750, 560, 330, 150, 30, 0]

/-- Where the published table of a band begins. -/
def blue : Band → ℚ
  | .U => 300 | .B => 360 | .V => 470 | .R => 550 | .I => 700

/-- Where the published table of a band ends. -/
def red : Band → ℚ
  | .U => 420 | .B => 560 | .V => 700 | .R => 900 | .I => 920

/-- Where a band is most open. -/
def peak : Band → ℚ
  | .U => 370 | .B => 420 | .V => 530 | .R => 600 | .I => 800

/-- Full width at half maximum in the documentation of the accessors (bessell1990.rs:179, 192, 205, 218, 231). -/
def width : Band → ℚ
  | .U => 66 | .B => 98 | .V => 88 | .R => 158 | .I => 154

/-- Mean wavelengths under a flat spectrum (mod.rs:56-57, 71, bessell1990.rs:75, 349-391). -/
def flatMean : Band → ℚ
  | .U => 360.5 | .B => 441.3 | .V => 551.2 | .R => 658.6 | .I => 806

end Verif.Passband.Spec
