import Mathlib.Analysis.SpecialFunctions.Trigonometric.Basic
import Verif.Search.Model

/-
Model of the public altitude queries, `/repo/src/event/altitude/events.rs`, for every target that
uses the generic implementation (`provider.rs` 47-100; stars, fixed directions and planets; the Moon
repeats the same code over its cached altitude, `lunar/altitude_periods.rs` 88-214).

Angles and times are real numbers, `sin` is the real sine. The altitude of the target is a function of
time. The search is `Verif.Search.findLabelledCrossings`; the period operations of the external crate
`tempoch` are the parameter `alg` (`Verif.Event.PeriodAlgebra`).
-/
namespace Verif.Altitude
open Verif.Event (LabeledCrossing PeriodAlgebra buildAbovePeriodsDirected)
open Verif.Search (Fit Config findLabelledCrossings)

/-- `threshold.to::<Radian>()` (crate `qtty`). -/
noncomputable def toRadians (deg : ℝ) : ℝ := deg * Real.pi / 180

/-- altitude/search.rs 194: 10 minutes. -/
noncomputable def defaultScanStep : ℝ := 10 / 1440

/-- altitude/search.rs 166-172 through events.rs 54-59. -/
noncomputable def scanStep (cfg : Config ℝ) (hint : Option ℝ) : ℝ :=
  (cfg.scanStep.or hint).getD defaultScanStep

/-- events.rs 61-80. -/
noncomputable def labelledCrossings (fit : Fit ℝ) (fuel : Nat) (a b step : ℝ) (altitude : ℝ → ℝ)
    (threshold : ℝ) (cfg : Config ℝ) : Option (List (LabeledCrossing ℝ) × Bool) :=
  findLabelledCrossings fit fuel a b step (fun t => Real.sin (altitude t)) (Real.sin threshold) cfg

/-- altitude/types.rs `CrossingDirection`. -/
inductive Direction where
  | rising
  | setting
deriving DecidableEq

/-- altitude/types.rs `CrossingEvent`. -/
structure CrossingEvent where
  mjd : ℝ
  direction : Direction

/-- events.rs 82-94. -/
def eventOf (c : LabeledCrossing ℝ) : CrossingEvent :=
  ⟨c.t, if c.direction > 0 then .rising else .setting⟩

/-- events.rs 135-175: `crossings` with the public options (a time tolerance). -/
noncomputable def crossings (fit : Fit ℝ) (fuel : Nat) (hint : Option ℝ) (altitude : ℝ → ℝ) (a b : ℝ)
    (threshold : ℝ) (tolerance : ℝ) : Option (List CrossingEvent) :=
  let cfg := Config.ofPublic tolerance
  (labelledCrossings fit fuel a b (scanStep cfg hint) altitude (toRadians threshold) cfg).map
    fun r => r.1.map eventOf

/-- events.rs 356-396 and search/periods.rs 15-21. -/
noncomputable def aboveThreshold (fit : Fit ℝ) (fuel : Nat) (hint : Option ℝ) (altitude : ℝ → ℝ)
    (a b : ℝ) (threshold : ℝ) (tolerance : ℝ) : Option (List (ℝ × ℝ)) :=
  let cfg := Config.ofPublic tolerance
  (labelledCrossings fit fuel a b (scanStep cfg hint) altitude (toRadians threshold) cfg).map
    fun r => buildAbovePeriodsDirected r.1 a b r.2

/-- events.rs 414-452 and search/periods.rs 27-32. -/
noncomputable def belowThreshold (alg : PeriodAlgebra ℝ) (fit : Fit ℝ) (fuel : Nat) (hint : Option ℝ)
    (altitude : ℝ → ℝ) (a b : ℝ) (threshold : ℝ) (tolerance : ℝ) : Option (List (ℝ × ℝ)) :=
  (aboveThreshold fit fuel hint altitude a b threshold tolerance).map fun above =>
    alg.complement (a, b) above

/-- events.rs 279-334 and search/periods.rs 35-46. -/
noncomputable def altitudeRanges (alg : PeriodAlgebra ℝ) (fit : Fit ℝ) (fuel : Nat)
    (hint : Option ℝ) (altitude : ℝ → ℝ) (a b : ℝ) (hMin hMax : ℝ) (tolerance : ℝ) :
    Option (List (ℝ × ℝ)) :=
  let cfg := Config.ofPublic tolerance
  let step := scanStep cfg hint
  (labelledCrossings fit fuel a b step altitude (toRadians hMin) cfg).bind fun mins =>
    (labelledCrossings fit fuel a b step altitude (toRadians hMax) cfg).map fun maxs =>
      let aboveMin := buildAbovePeriodsDirected mins.1 a b mins.2
      let aboveMax := buildAbovePeriodsDirected maxs.1 a b maxs.2
      alg.intersect aboveMin (alg.complement (a, b) aboveMax)

end Verif.Altitude
