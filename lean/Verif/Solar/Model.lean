import Mathlib.Algebra.Order.Floor.Defs
import Verif.Search.Model

/-
Model of `/repo/src/event/solar/daily_events.rs` (prediction of the daily threshold crossings of the
Sun, refinement, fallback) and `/repo/src/event/solar/periods.rs` with
`/repo/src/event/search/periods.rs` (periods built from the crossings).

Times and values are elements of one linearly ordered field with a floor (Rust: `f64`); rounding and
non-finite values are not modelled. The ephemerides are parameters (`Sky`): the precise and the fast
sine of the altitude, the declination and hour angle computed once per day, and the two transcendental
functions of the predictor. Angles around the day are given in turns, so the code's division by `2π`
disappears. Diagnostics counters are dropped.
-/
namespace Verif.Solar
open Verif.Event (LabeledCrossing sortAndDedup buildAbovePeriodsDirected)
open Verif.Search

variable {F : Type} [Field F] [LinearOrder F]

/-- What the daily predictor computes for the middle of a day (daily_events.rs 547-577): sine and
cosine of the declination, and the local hour angle in turns, normalised to `[0, 1)`
(`normalize_angle`, 899-902). -/
structure Ephem (F : Type) where
  sinDec : F
  cosDec : F
  hourAngle : F

/-- Everything that depends on the observer and on the Sun. -/
structure Sky (F : Type) where
  /-- `sun_altitude_rad(t, site).sin()`. -/
  precise : F → F
  /-- The fast model of the same quantity (`solar_residual_fast`). -/
  fast : F → F
  sinLat : F
  cosLat : F
  /-- `None` when right ascension or declination is not finite (559-561). -/
  ephem : F → Option (Ephem F)
  /-- `acos(c) / 2π`. -/
  arc : F → F
  /-- `sin(acos(c)) · 2π`. -/
  swing : F → F

/-- daily_events.rs 26. -/
def grazeEps : F := 1 / 10 ^ 3

/-- daily_events.rs 30-36, in days. -/
def bracketRadii : List F := [15 / 1440, 30 / 1440, 1 / 24, 2 / 24, 4 / 24]

/-- altitude/search.rs 185. -/
def rootIntervalEps : F := 1 / 10 ^ 12

/-- altitude/search.rs 191. -/
def diurnalScanStep : F := 2 / 24

/-- daily_events.rs 848-850. -/
def residualTol (cfg : Config F) : F := max cfg.maxResidual polyZeroTol

/-- daily_events.rs 543-587: `SolarDailyState`. -/
structure DayState (F : Type) where
  sinDec : F
  cosDec : F
  transit : F

/-- daily_events.rs 565-580: the transit nearest to the hour angle at midday, moved into the day. -/
def transitOf (day : F) (e : Ephem F) : F :=
  let mid := (day + (day + 1)) / 2
  let t := mid + -e.hourAngle
  if t < day then t + 1 else if t > day + 1 then t + -1 else t

def dailyState (sky : Sky F) (day : F) : Option (DayState F) :=
  (sky.ephem ((day + (day + 1)) / 2)).map fun e => ⟨e.sinDec, e.cosDec, transitOf day e⟩

/-- daily_events.rs 171-186: the first days of the loop. -/
def daysLoop (last : F) : Nat → F → Option (List F)
  | 0, _ => none
  | n + 1, d => if d ≤ last then (daysLoop last n (d + 1)).map (d :: ·) else some []

/-- daily_events.rs 171-187: starts of the processed days. -/
def eventDays [FloorRing F] (fuel : Nat) (tStart tEnd : F) : Option (List F) :=
  if tStart < tEnd then daysLoop ((⌊tEnd⌋ : F) + 1) fuel ((⌊tStart⌋ : F) + -1) else some []

/-- daily_events.rs 531-541. -/
def influence (tStart tEnd day : F) : F × F :=
  (max tStart (day + -(1 / 2)), min tEnd (day + 1 + 1 / 2))

/-- daily_events.rs 482-504. -/
structure Candidate (F : Type) where
  predicted : F
  direction : Int
  slope : F

def candidates (sky : Sky F) (s : DayState F) (cosH0 : F) : List (Candidate F) :=
  let dt := sky.arc cosH0
  let base := sky.cosLat * s.cosDec * sky.swing cosH0
  [⟨s.transit + -dt, 1, base⟩, ⟨s.transit + dt, -1, -base⟩]

/-- daily_events.rs 506-515. -/
def nearWindow (tStart tEnd : F) (c : Candidate F) : Bool :=
  decide (tStart + -(4 / 24) ≤ c.predicted ∧ c.predicted ≤ tEnd + 4 / 24)

/-- daily_events.rs 618-654 (`atRoot = 1e-4`) and 799-836 (`atRoot = residual_tol`): the first radius
that shows a change of sign. The two functions differ only in the residual and in `atRoot`. -/
def findBracket (r : F → F) (atRoot lo hi center : F) : List F → Option (F × F)
  | [] => none
  | radius :: rest =>
    let a := max lo (center - radius)
    let b := min hi (center + radius)
    if b ≤ a then findBracket r atRoot lo hi center rest
    else if |r a| ≤ atRoot then some (a, a)
    else if |r b| ≤ atRoot then some (b, b)
    else if opposite (r a) (r b) then some (a, b)
    else findBracket r atRoot lo hi center rest

/-- daily_events.rs 722-768: the secant iteration; `(some root, _)` when it accepts, else the last
point. -/
def secantLoop (r : F → F) (lo hi tol analytic : F) : Nat → F → F → F → Option F × F
  | 0, t, _, _ => (none, t)
  | n + 1, t, rt, slope =>
    if |slope| < 1 / 10 ^ 8 then (none, t)
    else
      let next := t - rt / slope
      if next < lo ∨ next > hi then (none, t)
      else
        let rn := r next
        if |rn| ≤ tol then (some next, t)
        else
          let dt := next - t
          let sec := (rn - rt) / dt
          let slope' := if 1 / 10 ^ 15 < |dt| ∧ opposite sec analytic = false ∧ 1 / 10 ^ 8 < |sec|
            then sec else slope
          if |rt| ≤ |rn| then (none, t) else secantLoop r lo hi tol analytic n next rn slope'

/-- daily_events.rs 770-796: refinement with the precise model from the best point so far. -/
def refineFull (r : F → F) (cfg : Config F) (lo hi center : F) : Option F :=
  (findBracket r (residualTol cfg) lo hi center bracketRadii).bind fun ab =>
    if ab.2 - ab.1 < rootIntervalEps then some ab.1
    else
      (brentF64 ab.1 ab.2 (r ab.1) (r ab.2) r cfg.timeTolerance (residualTol cfg)).bind fun root =>
        if lo ≤ root ∧ root ≤ hi then some root else none

/-- daily_events.rs 678-692: Newton step with the fast model. -/
def bracketCenter (rf : F → F) (lo hi predicted slope : F) : F :=
  if 1 / 10 ^ 8 < |slope| then
    let t := predicted - rf predicted / slope
    if lo ≤ t ∧ t ≤ hi then t else predicted
  else predicted

/-- daily_events.rs 694-720: the root of the fast model. -/
def fastRoot (rf : F → F) (cfg : Config F) (lo hi center : F) : Option F :=
  (findBracket rf (1 / 10 ^ 4) lo hi center bracketRadii).bind fun ab =>
    (if ab.2 - ab.1 < rootIntervalEps then some ab.1
      else brentF64 ab.1 ab.2 (rf ab.1) (rf ab.2) rf cfg.timeTolerance (residualTol cfg)).bind
    fun t => if t < lo ∨ t > hi then none else some t

/-- daily_events.rs 666-796. `r` and `rf` are the precise and the fast residual. -/
def refineCandidate (r rf : F → F) (cfg : Config F) (lo hi predicted slope : F) : Option F :=
  (fastRoot rf cfg lo hi (bracketCenter rf lo hi predicted slope)).bind fun t0 =>
    if |r t0| ≤ residualTol cfg then some t0
    else
      match secantLoop r lo hi (residualTol cfg * 10) slope 6 t0 (r t0) slope with
      | (some t, _) => some t
      | (none, t) => refineFull r cfg lo hi t

/-- daily_events.rs 517-529, 852-892: the generic search on one influence window. -/
def fallbackWindow (fit : Fit F) (fuel : Nat) (sky : Sky F) (thr : F) (cfg : Config F) (w : F × F) :
    Option (List (LabeledCrossing F)) :=
  if w.1 < w.2 then
    (findLabelledCrossings fit fuel w.1 w.2 diurnalScanStep sky.precise thr cfg).map (·.1)
  else some []

/-- daily_events.rs 589-615. -/
def acceptNoCrossing (r : F → F) (cfg : Config F) (w : F × F) (above : Bool) : Bool :=
  if w.2 ≤ w.1 then true
  else [w.1, (w.1 + w.2) / 2, w.2].all fun t =>
    !(decide (|r t| ≤ residualTol cfg * 10) || (above && decide (r t < 0)) ||
      (!above && decide (0 < r t)))

/-- daily_events.rs 385-398: what the analytic model says about the day. -/
inductive DayCase (F : Type) where
  | alwaysBelow
  | alwaysAbove
  | grazing
  | crossings (cosH0 : F)

/-- daily_events.rs 371-398. -/
def dayCase (sky : Sky F) (s : DayState F) (thr : F) : DayCase F :=
  let denom := sky.cosLat * s.cosDec
  if |denom| < 1 / 10 ^ 12 then .grazing
  else
    let c := (thr - sky.sinLat * s.sinDec) / denom
    if 1 + grazeEps < c then .alwaysBelow
    else if c < -1 - grazeEps then .alwaysAbove
    else if ¬(-1 ≤ c ∧ c ≤ 1) ∨ |c + 1| < grazeEps ∨ |c - 1| < grazeEps then .grazing
    else .crossings c

/-- daily_events.rs 427-463: the candidates in turn; the flag tells that some refinement failed. -/
def refineAll (r rf : F → F) (cfg : Config F) (tStart tEnd lo hi : F) :
    List (Candidate F) → List (LabeledCrossing F) × Bool
  | [] => ([], false)
  | c :: cs =>
    let rest := refineAll r rf cfg tStart tEnd lo hi cs
    if nearWindow tStart tEnd c then
      match refineCandidate r rf cfg lo hi c.predicted c.slope with
      | some root =>
        if tStart ≤ root ∧ root ≤ tEnd then (⟨root, c.direction⟩ :: rest.1, rest.2) else rest
      | none => (rest.1, true)
    else rest

/-- daily_events.rs 355-480. -/
def predictDay (fit : Fit F) (fuel : Nat) (sky : Sky F) (thr : F) (cfg : Config F)
    (tStart tEnd day : F) (s : DayState F) : Option (List (LabeledCrossing F)) :=
  let w := influence tStart tEnd day
  let r := fun t => sky.precise t - thr
  let rf := fun t => sky.fast t - thr
  match dayCase sky s thr with
  | .grazing => fallbackWindow fit fuel sky thr cfg w
  | .alwaysBelow =>
    if acceptNoCrossing r cfg w false then some [] else fallbackWindow fit fuel sky thr cfg w
  | .alwaysAbove =>
    if acceptNoCrossing r cfg w true then some [] else fallbackWindow fit fuel sky thr cfg w
  | .crossings c =>
    match refineAll r rf cfg tStart tEnd w.1 w.2 (candidates sky s c) with
    | (_, true) => fallbackWindow fit fuel sky thr cfg w
    | (l, false) => some l

/-- daily_events.rs 301-327 (also 219-248): one day, one threshold. -/
def dayCrossings (fit : Fit F) (fuel : Nat) (sky : Sky F) (thr : F) (cfg : Config F)
    (tStart tEnd day : F) : Option (List (LabeledCrossing F)) :=
  match dailyState sky day with
  | none => fallbackWindow fit fuel sky thr cfg (influence tStart tEnd day)
  | some s => predictDay fit fuel sky thr cfg tStart tEnd day s

/-- daily_events.rs 300-327: all days, one threshold, before sorting. -/
def allDays (fit : Fit F) (fuel : Nat) (sky : Sky F) (thr : F) (cfg : Config F) (tStart tEnd : F) :
    List F → Option (List (LabeledCrossing F))
  | [] => some []
  | d :: ds =>
    (dayCrossings fit fuel sky thr cfg tStart tEnd d).bind fun l =>
      (allDays fit fuel sky thr cfg tStart tEnd ds).map (l ++ ·)

/-- daily_events.rs 259-332. `disabled` is `disable_solar_daily_predictor`; `thr` is the sine of the
threshold. -/
def dailyCrossings [FloorRing F] (fit : Fit F) (fuel : Nat) (sky : Sky F) (disabled : Bool) (thr : F)
    (cfg : Config F) (tStart tEnd : F) : Option (List (LabeledCrossing F)) :=
  if tEnd ≤ tStart then some []
  else if cfg.forceScanBaseline then
    scanLabelledCrossings fuel tStart tEnd (cfg.scanStep.getD diurnalScanStep) sky.precise thr
      cfg.timeTolerance cfg.maxResidual
  else if disabled then
    (findLabelledCrossings fit fuel tStart tEnd diurnalScanStep sky.precise thr cfg).map (·.1)
  else
    (eventDays fuel tStart tEnd).bind fun days =>
      (allDays fit fuel sky thr cfg tStart tEnd days).map sortAndDedup

/-- daily_events.rs 218-249: the inner loop over the thresholds extends each result. -/
def extendAll (fit : Fit F) (fuel : Nat) (sky : Sky F) (cfg : Config F) (tStart tEnd day : F) :
    List F → List (List (LabeledCrossing F)) → Option (List (List (LabeledCrossing F)))
  | thr :: thrs, acc :: accs =>
    (dayCrossings fit fuel sky thr cfg tStart tEnd day).bind fun l =>
      (extendAll fit fuel sky cfg tStart tEnd day thrs accs).map ((acc ++ l) :: ·)
  | _, accs => some accs

/-- daily_events.rs 217-249. -/
def batchLoop (fit : Fit F) (fuel : Nat) (sky : Sky F) (cfg : Config F) (tStart tEnd : F)
    (thrs : List F) : List F → List (List (LabeledCrossing F)) →
    Option (List (List (LabeledCrossing F)))
  | [], acc => some acc
  | d :: ds, acc =>
    (extendAll fit fuel sky cfg tStart tEnd d thrs acc).bind fun acc' =>
      batchLoop fit fuel sky cfg tStart tEnd thrs ds acc'

/-- daily_events.rs 191-256. -/
def dailyCrossingsBatch [FloorRing F] (fit : Fit F) (fuel : Nat) (sky : Sky F) (disabled : Bool)
    (thrs : List F) (cfg : Config F) (tStart tEnd : F) :
    Option (List (List (LabeledCrossing F))) :=
  if thrs.isEmpty then some []
  else if tEnd ≤ tStart then some (thrs.map fun _ => [])
  else if cfg.forceScanBaseline || disabled then
    thrs.mapM fun thr => dailyCrossings fit fuel sky disabled thr cfg tStart tEnd
  else
    (eventDays fuel tStart tEnd).bind fun days =>
      (batchLoop fit fuel sky cfg tStart tEnd thrs days (thrs.map fun _ => [])).map
        (·.map sortAndDedup)

/-- solar/periods.rs 21-29, 78-88, search/periods.rs 15-21. -/
def solarAbove [FloorRing F] (fit : Fit F) (fuel : Nat) (sky : Sky F) (disabled : Bool) (thr : F)
    (cfg : Config F) (tStart tEnd : F) : Option (List (F × F)) :=
  (dailyCrossings fit fuel sky disabled thr cfg tStart tEnd).map fun l =>
    buildAbovePeriodsDirected l tStart tEnd (decide (thr < sky.precise tStart))

end Verif.Solar
