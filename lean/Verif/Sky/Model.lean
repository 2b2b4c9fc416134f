import Mathlib.Analysis.SpecialFunctions.Complex.Arg
import Mathlib.Analysis.SpecialFunctions.Trigonometric.Inverse
import Verif.Event.Model

/-
Model of the sky geometry behind the event searches: twilight classes, Moon phases, azimuth functions and the
conversion to horizontal coordinates. Real arithmetic instead of `f64`, except `ModLoop`, where the arithmetic
is a parameter.
-/
namespace Verif.Sky

/-! ### Shared numeric helpers -/

/-- `f64::rem_euclid(TAU)`. -/
noncomputable def remTau (x : ℝ) : ℝ := x - 2 * Real.pi * ⌊x / (2 * Real.pi)⌋

/-- `f64::atan2(y, x)` without signed zeros. -/
noncomputable def atan2 (y x : ℝ) : ℝ := Complex.arg ⟨x, y⟩

/-- Degrees to radians and back (`Quantity::to`). -/
noncomputable def toRad (d : ℝ) : ℝ := d * (Real.pi / 180)
noncomputable def toDeg (r : ℝ) : ℝ := r * (180 / Real.pi)

/-! ### Twilight -/

/-- classification.rs 54-65. -/
inductive Twilight where
  | day | civil | nautical | astronomical | dark
deriving DecidableEq, Repr

/-- `a > c` for an `f64`; `none` is NaN. -/
noncomputable def gt (a : Option ℝ) (c : ℝ) : Bool :=
  match a with
  | none => false
  | some x => decide (c < x)

/-- classification.rs 131-147, altitude in degrees. -/
noncomputable def twilight (alt : Option ℝ) : Twilight :=
  if gt alt 0 then .day
  else if gt alt (-6) then .civil
  else if gt alt (-12) then .nautical
  else if gt alt (-18) then .astronomical
  else .dark

/-- night_types.rs 31-42. -/
inductive Regime where
  | civil | nautical | astronomical | horizon | apparentHorizon

/-- night_types.rs 67-75. -/
noncomputable def Regime.threshold : Regime → ℝ
  | .civil => -6
  | .nautical => -12
  | .astronomical => -18
  | .horizon => 0
  | .apparentHorizon => -833 / 1000

/-! ### Moon phase labels -/

/-- phase.rs 121-138. -/
inductive Label where
  | newMoon | waxingCrescent | firstQuarter | waxingGibbous | fullMoon | waningGibbous | lastQuarter | waningCrescent
deriving DecidableEq, Repr

/-- phase.rs 148-150: `while e >= full { e -= full }`; the subtraction is a parameter. -/
noncomputable def reduceDown (sub : ℝ → ℝ → ℝ) : Nat → ℝ → Option ℝ
  | 0, _ => none
  | n + 1, e => if 360 ≤ e then reduceDown sub n (sub e 360) else some e

/-- phase.rs 151-153: `while e < 0 { e += full }`. -/
noncomputable def reduceUp (add : ℝ → ℝ → ℝ) : Nat → ℝ → Option ℝ
  | 0, _ => none
  | n + 1, e => if e < 0 then reduceUp add n (add e 360) else some e

/-- phase.rs 155-171. -/
noncomputable def labelOf (e hw : ℝ) : Label :=
  if e < hw ∨ 360 - hw ≤ e then .newMoon
  else if e < 90 - hw then .waxingCrescent
  else if e < 90 + hw then .firstQuarter
  else if e < 180 - hw then .waxingGibbous
  else if e < 180 + hw then .fullMoon
  else if e < 270 - hw then .waningGibbous
  else if e < 270 + hw then .lastQuarter
  else .waningCrescent

/-- phase.rs 143-172. `none`: the loops have not finished within the fuel. -/
noncomputable def fromElongation (sub add : ℝ → ℝ → ℝ) (fuel : Nat) (e hw : ℝ) : Option Label :=
  (reduceDown sub fuel e).bind (fun e => (reduceUp add fuel e).map (fun e => labelOf e hw))

/-- phase.rs 175-180. -/
def Label.isWaxing : Label → Bool
  | .waxingCrescent | .firstQuarter | .waxingGibbous => true
  | _ => false

/-- phase.rs 183-188. -/
def Label.isWaning : Label → Bool
  | .waningGibbous | .lastQuarter | .waningCrescent => true
  | _ => false

/-- phase.rs 211-224. -/
noncomputable def Label.centre : Label → ℝ
  | .newMoon => 0
  | .waxingCrescent => 45
  | .firstQuarter => 90
  | .waxingGibbous => 135
  | .fullMoon => 180
  | .waningGibbous => 225
  | .lastQuarter => 270
  | .waningCrescent => 315

/-! ### Moon phase geometry -/

/-- phase.rs 82. -/
noncomputable def auKm : ℝ := 149597870700 / 1000

/-- phase.rs 376-378. -/
noncomputable def elongationFromLongitudes (moonLon sunLon : ℝ) : ℝ := remTau (moonLon - sunLon)

/-- phase.rs 388-404. -/
noncomputable def phaseAngle (moonKm sunAu psi : ℝ) : ℝ :=
  let rm := moonKm / auKm
  let dSq := sunAu * sunAu + rm * rm - 2 * sunAu * rm * Real.cos psi
  let d := Real.sqrt (max dSq 0)
  if d < 1 / 10 ^ 15 then 0
  else
    let c := (d * d + rm * rm - sunAu * sunAu) / (2 * d * rm)
    Real.arccos (max (-1) (min c 1))

/-- phase.rs 461-472. -/
noncomputable def greatCircle (lon1 lat1 lon2 lat2 : ℝ) : ℝ :=
  let dlon := lon2 - lon1
  let x := Real.cos lat1 * Real.sin lat2 - Real.sin lat1 * Real.cos lat2 * Real.cos dlon
  let y := Real.cos lat2 * Real.sin dlon
  let z := Real.sin lat1 * Real.sin lat2 + Real.cos lat1 * Real.cos lat2 * Real.cos dlon
  atan2 (Real.sqrt (x * x + y * y)) z

/-- phase.rs 303-315. -/
structure Geometry where
  phase : ℝ
  fraction : ℝ
  elongation : ℝ
  waxing : Bool

/-- phase.rs 427-450 for given positions. -/
noncomputable def geocentric (moonLon moonLat moonKm sunLon sunAu : ℝ) : Geometry :=
  let psi := greatCircle sunLon 0 moonLon moonLat
  let signed := elongationFromLongitudes moonLon sunLon
  let i := phaseAngle moonKm sunAu psi
  { phase := i, fraction := (1 + Real.cos i) / 2, elongation := signed,
    waxing := decide (0 < signed) && decide (signed < Real.pi) }

/-- phase.rs 510-553 for given positions. -/
noncomputable def topocentric (moonRa moonDec sunRa sunDec moonKm sunAu : ℝ) : Geometry :=
  let psi := greatCircle moonRa moonDec sunRa sunDec
  let dra := remTau (moonRa - sunRa)
  let signed := if dra < Real.pi then psi else 2 * Real.pi - psi
  let i := phaseAngle moonKm sunAu psi
  { phase := i, fraction := (1 + Real.cos i) / 2, elongation := signed,
    waxing := decide (0 < signed) && decide (signed < Real.pi) }

/-! ### Principal phase events -/

/-- phase.rs 231-242. -/
inductive PhaseKind where
  | newMoon | firstQuarter | fullMoon | lastQuarter
deriving DecidableEq

/-- phase.rs 246-253. -/
noncomputable def PhaseKind.target : PhaseKind → ℝ
  | .newMoon => 0
  | .firstQuarter => Real.pi / 2
  | .fullMoon => Real.pi
  | .lastQuarter => 3 * Real.pi / 2

/-- phase.rs 256-261. -/
def PhaseKind.all : List PhaseKind := [.newMoon, .firstQuarter, .fullMoon, .lastQuarter]

/-- phase.rs 667-674. -/
noncomputable def angleDiff (a b : ℝ) : ℝ :=
  let d := remTau (a - b)
  if Real.pi < d then d - 2 * Real.pi else d

/-- phase.rs 634-658: the events of one kind, for the elongation `elong` as a function of time. -/
noncomputable def kindEvents (root : Event.RootFinder ℝ) (fuel : Nat) (a b step : ℝ) (elong : ℝ → ℝ) (k : PhaseKind) :
    Option (List (ℝ × PhaseKind)) :=
  (Event.findCrossings root fuel a b step (fun t => Real.sin (elong t - k.target)) 0).map (fun ts =>
    (ts.filter (fun t => decide (|angleDiff (elong t) k.target| < 1 / 2))).map (fun t => (t, k)))

/-- phase.rs 634-659: all kinds in turn. -/
noncomputable def collectKinds (root : Event.RootFinder ℝ) (fuel : Nat) (a b step : ℝ) (elong : ℝ → ℝ) :
    List PhaseKind → Option (List (ℝ × PhaseKind))
  | [] => some []
  | k :: rest =>
    (kindEvents root fuel a b step elong k).bind (fun es =>
      (collectKinds root fuel a b step elong rest).map (fun rs => es ++ rs))

/-- phase.rs 626-664. -/
noncomputable def findPhaseEvents (root : Event.RootFinder ℝ) (fuel : Nat) (a b step : ℝ) (elong : ℝ → ℝ) :
    Option (List (ℝ × PhaseKind)) :=
  (collectKinds root fuel a b step elong PhaseKind.all).map
    (fun es => es.mergeSort (fun x y => decide (x.1 ≤ y.1)))

/-- phase.rs 703-718 and 735-748: the sample times. -/
noncomputable def sampleTimes (stop step : ℝ) : Nat → ℝ → Option (List ℝ)
  | 0, _ => none
  | n + 1, t => if t ≤ stop then (sampleTimes stop step n (t + step)).map (fun l => t :: l) else some []

/-! ### Azimuth -/

/-- azimuth/events.rs 73-84. -/
noncomputable def bearingSin (az : ℝ → ℝ) (bearing : ℝ) (t : ℝ) : ℝ := Real.sin (az t - bearing)

/-- azimuth/events.rs 91-103. -/
noncomputable def azCosine (mid cosHw az : ℝ) : ℝ := Real.cos (az - mid) - cosHw

/-- azimuth/events.rs 182-212; the bearing in degrees, crossings with their direction sign. -/
noncomputable def azimuthCrossings (root : Event.RootFinder ℝ) (fuel : Nat) (a b step : ℝ) (az : ℝ → ℝ) (bearing : ℝ) :
    Option (List (Event.LabeledCrossing ℝ)) :=
  (Event.findCrossings root fuel a b step (bearingSin az (toRad bearing)) 0).map (fun raw =>
    Event.labelCrossings raw (bearingSin az (toRad bearing)) 0)

/-- azimuth/events.rs 299-309 (and 314-324 with the bounds exchanged): the function whose positive part is
the arc from `lo` to `hi`, both in degrees. -/
noncomputable def arcFn (lo hi az : ℝ) : ℝ :=
  azCosine (toRad ((lo + hi) * (1 / 2))) (Real.cos (toRad ((hi - lo) * (1 / 2)))) az

/-- azimuth/events.rs 291-328. -/
noncomputable def azimuthRangePeriods (alg : Event.PeriodAlgebra ℝ) (root : Event.RootFinder ℝ) (fuel : Nat)
    (a b step : ℝ) (az : ℝ → ℝ) (min max : ℝ) : Option (List (ℝ × ℝ)) :=
  if min ≤ max then Event.aboveThresholdPeriods root fuel a b step (fun t => arcFn min max (az t)) 0
  else
    (Event.aboveThresholdPeriods root fuel a b step (fun t => arcFn max min (az t)) 0).map
      (fun outside => alg.complement (a, b) outside)

/-- azimuth/events.rs 119-120: the state of the unwrapping closure; `none` is the NaN before the first call. -/
structure Unwrap where
  prev : Option ℝ
  offset : ℝ

/-- azimuth/events.rs 119-120. -/
noncomputable def Unwrap.init : Unwrap := ⟨none, 0⟩

/-- azimuth/events.rs 121-136: one evaluation with raw azimuth `raw`. -/
noncomputable def Unwrap.eval (s : Unwrap) (raw : ℝ) : Unwrap × ℝ :=
  let offset :=
    match s.prev with
    | none => s.offset
    | some p =>
      if Real.pi < raw - p then s.offset - 2 * Real.pi
      else if raw - p < -Real.pi then s.offset + 2 * Real.pi
      else s.offset
  (⟨some raw, offset⟩, raw + offset)

/-- A sequence of evaluations: the values returned. -/
noncomputable def Unwrap.run : Unwrap → List ℝ → List ℝ
  | _, [] => []
  | s, raw :: rest => (s.eval raw).2 :: Unwrap.run (s.eval raw).1 rest

/-! ### Horizontal coordinates -/

/-- horizontal.rs 199-215 (and 284-293): altitude and azimuth in radians for local sidereal time, right
ascension, declination and latitude. `normalize` of the external crate `qtty` is taken as reduction to
`[0, 2π)`. -/
noncomputable def horizontal (lst ra dec lat : ℝ) : ℝ × ℝ :=
  let ha := remTau (lst - ra)
  let sinAlt := Real.sin dec * Real.sin lat + Real.cos dec * Real.cos lat * Real.cos ha
  let azRad := atan2 (-Real.cos dec * Real.sin ha)
    (Real.sin dec * Real.cos lat - Real.cos dec * Real.cos ha * Real.sin lat)
  (Real.arcsin sinAlt, remTau azRad)

/-- horizontal.rs 256-295: a star of J2000 coordinates; `npb` is the precession-nutation matrix (rows), `none`
for the geometric policy. -/
noncomputable def starHorizontal (npb : Option (Fin 3 → Fin 3 → ℝ)) (lst ra dec lat : ℝ) : ℝ × ℝ :=
  let v0 : Fin 3 → ℝ := ![Real.cos dec * Real.cos ra, Real.cos dec * Real.sin ra, Real.sin dec]
  let v : Fin 3 → ℝ :=
    match npb with
    | none => v0
    | some m => fun i => m i 0 * v0 0 + m i 1 * v0 1 + m i 2 * v0 2
  horizontal lst (atan2 (v 1) (v 0)) (Real.arcsin (v 2)) lat

end Verif.Sky
