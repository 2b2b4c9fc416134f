import Verif.Sky.Model
import Verif.Event.Model
import Mathlib.Analysis.SpecialFunctions.Trigonometric.Inverse
import Mathlib.Data.Matrix.Mul
import Mathlib.LinearAlgebra.Matrix.Notation

/-
Model of the analytical search for the altitude crossings of a fixed star
(`src/event/stellar/star_equations.rs`, `src/event/stellar/altitude_periods.rs` 52-55, 160-316).

Real arithmetic. Parameters: the precession-nutation matrix of the middle of the window, apparent
sidereal time, the length of the sidereal day (`qtty::time::SIDEREAL_DAY`), the altitude function
itself, `f64::signum`, and the root refinement (`brent_with_values`). Loops carry fuel; `none` means
that a loop has not ended.
-/
namespace Verif.Stellar

open Verif.Sky (toRad toDeg atan2)
open Verif.Event

/-- star_equations.rs 66-76: `ThresholdResult`, the hour angle in radians. -/
inductive Threshold where
  | alwaysAbove
  | neverAbove
  | crossings (h0 : ℝ)

/-- star_equations.rs 92-101: `StarAltitudeParams`; right ascension and longitude in degrees. -/
structure Params where
  a : ℝ
  b : ℝ
  ra : ℝ
  lon : ℝ

/-- star_equations.rs 110-146: `from_j2000`; angles in degrees, `npb` is the precession-nutation
matrix of the epoch. -/
noncomputable def fromJ2000 (npb : Matrix (Fin 3) (Fin 3) ℝ) (ra dec lat lon : ℝ) : Params :=
  let ra := toRad ra
  let dec := toRad dec
  let v := npb.mulVec ![Real.cos dec * Real.cos ra, Real.cos dec * Real.sin ra, Real.sin dec]
  let decT := Real.arcsin (v 2)
  let lat := toRad lat
  { a := Real.sin decT * Real.sin lat
    b := Real.cos decT * Real.cos lat
    ra := toDeg (atan2 (v 1) (v 0))
    lon := lon }

/-- star_equations.rs 55: `DEGENERATE_B_EPS`. -/
noncomputable def degenerateEps : ℝ := 1 / 10 ^ 15

/-- star_equations.rs 153-177: `threshold_ha`, the threshold in radians. -/
noncomputable def thresholdHa (p : Params) (thr : ℝ) : Threshold :=
  let sinH := Real.sin thr
  if |p.b| < degenerateEps then
    if p.a > sinH then .alwaysAbove else .neverAbove
  else
    let c := (sinH - p.a) / p.b
    if c ≤ -1 then .alwaysAbove
    else if c ≥ 1 then .neverAbove
    else .crossings (Real.arccos c)

/-- star_equations.rs 183-193: `hour_angle` in degrees; `gast` in radians. -/
noncomputable def hourAngle (gast : ℝ → ℝ) (p : Params) (t : ℝ) : ℝ :=
  toDeg (gast t + toRad p.lon - toRad p.ra)

/-- `Degrees::normalize` (`qtty`): `rem_euclid(360)`. -/
noncomputable def norm360 (x : ℝ) : ℝ := x - 360 * ⌊x / 360⌋

/-- star_equations.rs 58: `CROSSING_EDGE_EPS`. -/
noncomputable def edgeEps : ℝ := 1 / 10 ^ 12

/-- star_equations.rs 224-230: a predicted time, clamped to the window. -/
noncomputable def clampTime (start stop t : ℝ) : ℝ :=
  if t ≥ stop then stop else if t ≤ start then start else t

/-- star_equations.rs 220-233: the loop over the occurrences of one target hour angle. -/
noncomputable def occurrences (sid start stop : ℝ) : Nat → ℝ → Option (List ℝ)
  | 0, _ => none
  | n + 1, dt =>
    if start + dt ≤ stop + edgeEps then
      (occurrences sid start stop n (dt + sid)).map (clampTime start stop (start + dt) :: ·)
    else some []

/-- star_equations.rs 216-218: time from the start to the first occurrence of a target. -/
noncomputable def firstOffset (sid haStart target : ℝ) : ℝ :=
  sid * (norm360 (target - haStart) / 360)

/-- star_equations.rs 200-238: `predict_crossings`; `haStart` is the hour angle at the start of the
window. The sort is stable. -/
noncomputable def predictCrossings (fuel : Nat) (sid haStart start stop h0 : ℝ) : Option (List (ℝ × Int)) :=
  let h0d := toDeg h0
  match occurrences sid start stop fuel (firstOffset sid haStart (360 - h0d)),
    occurrences sid start stop fuel (firstOffset sid haStart h0d) with
  | some r, some s =>
    some ((r.map (fun t => (t, (1 : Int))) ++ s.map (fun t => (t, (-1 : Int)))).mergeSort
      (fun x y => decide (x.1 ≤ y.1)))
  | _, _ => none

/-- altitude_periods.rs 64: `BRACKET_HALF`. -/
noncomputable def bracketHalf : ℝ := 15 / 1440

/-- altitude_periods.rs 67: `SCAN_STEP_FALLBACK`. -/
noncomputable def scanStep : ℝ := 10 / 1440

/-- altitude_periods.rs 213-221. -/
noncomputable def bracketLo (start p : ℝ) : ℝ := if p - bracketHalf ≥ start then p - bracketHalf else start

/-- altitude_periods.rs 222-230. -/
noncomputable def bracketHi (stop p : ℝ) : ℝ := if p + bracketHalf ≤ stop then p + bracketHalf else stop

/-- altitude_periods.rs 212-248: refinement of one prediction. `opposite_sign` (52-55) is a product
of signums below zero. -/
noncomputable def refine (sg : ℝ → Int) (root : RootFinder ℝ) (g : ℝ → ℝ) (start stop p : ℝ) : Option ℝ :=
  let lo := bracketLo start p
  let hi := bracketHi stop p
  if hi - lo < 1 / 10 ^ 12 then none
  else if sg (g lo) * sg (g hi) < 0 then
    match root lo hi (g lo) (g hi) g with
    | some r => if r ≥ start ∧ r ≤ stop then some r else none
    | none => none
  else none

/-- altitude_periods.rs 189-191 and 199-201: the scan used when the analytical verdict contradicts
an end of the window. -/
noncomputable def fallback (root : RootFinder ℝ) (fuel : Nat) (f : ℝ → ℝ) (start stop thr : ℝ) :
    Option (List (LabeledCrossing ℝ)) :=
  (findCrossings root fuel start stop scanStep f thr).map fun cs => labelCrossings cs f thr

/-- altitude_periods.rs 160-254: `find_crossings_analytical`; `f` is the altitude (radians), `ha` the
hour angle in degrees for the parameters at the middle of the window. -/
noncomputable def findAnalytical (sg : ℝ → Int) (root : RootFinder ℝ) (fuel : Nat) (sid : ℝ)
    (p : Params) (ha : ℝ → ℝ) (f : ℝ → ℝ) (start stop thr : ℝ) :
    Option (List (LabeledCrossing ℝ) × Bool) :=
  let startAbove : Bool := decide (f start > thr)
  match thresholdHa p thr with
  | .alwaysAbove =>
    if startAbove && decide (f stop > thr) then some ([], true)
    else (fallback root fuel f start stop thr).map (·, startAbove)
  | .neverAbove =>
    if !startAbove && !decide (f stop > thr) then some ([], false)
    else (fallback root fuel f start stop thr).map (·, startAbove)
  | .crossings h0 =>
    (predictCrossings fuel sid (ha start) start stop h0).map fun predicted =>
      (labelCrossings (predicted.filterMap fun q => refine sg root (fun t => f t - thr) start stop q.1)
        f thr, startAbove)

/-- altitude_periods.rs 273-286: `find_star_above_periods`, the threshold in radians. -/
noncomputable def abovePeriods (sg : ℝ → Int) (root : RootFinder ℝ) (fuel : Nat) (sid : ℝ)
    (p : Params) (ha : ℝ → ℝ) (f : ℝ → ℝ) (start stop thr : ℝ) : Option (List (ℝ × ℝ)) :=
  (findAnalytical sg root fuel sid p ha f start stop thr).map fun r =>
    buildAbovePeriods r.1 start stop r.2 f thr

end Verif.Stellar
