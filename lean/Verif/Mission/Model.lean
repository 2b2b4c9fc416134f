import Mathlib.Analysis.InnerProductSpace.PiL2
import Mathlib.Analysis.SpecialFunctions.Trigonometric.Inverse
import Mathlib.Analysis.SpecialFunctions.Trigonometric.Arctan
import Mathlib.Analysis.SpecialFunctions.Complex.Arg
import Mathlib.LinearAlgebra.CrossProduct
import Mathlib.Algebra.Order.Floor.Ring
import Mathlib.Data.List.Sort

/-!
# Mission geometry

Model of `src/mission/geometry/{occultation,eclipse,az_el_range,local_frame,orbit_relative,fov,
terrain_mask}.rs`.

Real arithmetic.  The vector types of `affn` are vectors of the Euclidean space ℝ³ with their
usual operations; `Direction::new` normalises, `Direction::cross` normalises and fails on parallel
arguments.  `NaN` is not represented.
-/

namespace Verif.Mission

open Classical

abbrev Vec3 := EuclideanSpace ℝ (Fin 3)

/-- `f64::atan2`. -/
noncomputable def atan2 (y x : ℝ) : ℝ := Complex.arg ⟨x, y⟩

/-- `f64::rem_euclid` for a positive divisor. -/
noncomputable def remEuclid (x y : ℝ) : ℝ := x - ⌊x / y⌋ * y

/-- `core::f64::consts::TAU`. -/
noncomputable def tau : ℝ := 2 * Real.pi

/-- `f64::clamp`. -/
noncomputable def clamp (x lo hi : ℝ) : ℝ := if x < lo then lo else if hi < x then hi else x

/-! ## Occultation and eclipse -/

/-- `line_of_sight_obstructed` (src/mission/geometry/occultation.rs:17-44). -/
noncomputable def obstructed (observer target : Vec3) (r : ℝ) : Bool :=
  let d := target - observer
  let f := observer
  let a := ‖d‖ ^ 2
  if a = 0 then decide (‖f‖ ≤ r)
  else
    let b := 2 * inner ℝ f d
    let c := ‖f‖ ^ 2 - r * r
    let disc := b * b - 4 * a * c
    if disc < 0 then false
    else
      let sd := Real.sqrt disc
      let t1 := (-b - sd) / (2 * a)
      let t2 := (-b + sd) / (2 * a)
      decide ((0 ≤ t1 ∧ t1 ≤ 1) ∨ (0 ≤ t2 ∧ t2 ≤ 1) ∨ (t1 < 0 ∧ 1 < t2))

/-- The overlap of two discs of angular radii `r`, `r2` at separation `d` as a fraction of the first
(occultation.rs:75-107). -/
noncomputable def overlapFraction (r r2 d : ℝ) : ℝ :=
  let area := Real.pi * r * r
  if r + r2 ≤ d then 0
  else if d + r ≤ r2 then 1
  else if d + r2 ≤ r then (r2 * r2) / (r * r)
  else
    let part1 := r * r * Real.arccos (clamp ((d * d + r * r - r2 * r2) / (2 * d * r)) (-1) 1)
    let part2 := r2 * r2 * Real.arccos (clamp ((d * d + r2 * r2 - r * r) / (2 * d * r2)) (-1) 1)
    let part3 := 0.5 * Real.sqrt (max ((-d + r + r2) * (d + r - r2) * (d - r + r2) * (d + r + r2)) 0)
    clamp ((part1 + part2 - part3) / area) 0 1

/-- `occultation_fraction` (occultation.rs:51-108). -/
noncomputable def occultationFraction (observer target : Vec3) (tr : ℝ) (occulter : Vec3) (or : ℝ) : ℝ :=
  let dt := target - observer
  let dO := occulter - observer
  let nt := ‖dt‖
  let no := ‖dO‖
  if nt = 0 ∨ no = 0 then 0
  else
    let appT := Real.arctan (tr / nt)
    let appO := Real.arctan (or / no)
    let cosSep := inner ℝ dt dO / (nt * no)
    let sep := Real.arccos (clamp cosSep (-1) 1)
    overlapFraction appT appO sep

/-- `EclipseState` (src/mission/geometry/eclipse.rs:13-20). -/
inductive Eclipse
  | sunlight | penumbra | umbra
  deriving DecidableEq

/-- `eclipse_state` (eclipse.rs:29-55). -/
noncomputable def eclipseState (sat sun : Vec3) (sunRadius : ℝ) (occulter : Vec3) (radius : ℝ) : Eclipse :=
  let f := occultationFraction sat sun sunRadius occulter radius
  if 1 - 1e-9 ≤ f then .umbra else if 0 < f then .penumbra else .sunlight

/-- `solar_eclipsing` (eclipse.rs:58-73). -/
noncomputable def solarEclipsing (sat sun : Vec3) (sunRadius : ℝ) (occulter : Vec3) (radius : ℝ) : Bool :=
  decide (eclipseState sat sun sunRadius occulter radius ≠ .sunlight)

/-! ## Azimuth, elevation and range -/

/-- `LocalFrame` (src/mission/geometry/local_frame.rs:17-22). -/
structure LocalFrame where
  lat : ℝ
  lon : ℝ

/-- `LocalFrame::basis` (local_frame.rs:31-40): east, north, up. -/
noncomputable def LocalFrame.basis (f : LocalFrame) : Vec3 × Vec3 × Vec3 :=
  let sp := Real.sin f.lat
  let cp := Real.cos f.lat
  let sl := Real.sin f.lon
  let cl := Real.cos f.lon
  (!₂[-sl, cl, 0], !₂[-sp * cl, -sp * sl, cp], !₂[cp * cl, cp * sl, sp])

/-- `LineOfSightStatus` (src/mission/geometry/az_el_range.rs:31-39). -/
inductive Status
  | clear | bodyObstructed | belowTerrainMask
  deriving DecidableEq

/-- `AzElRange` (az_el_range.rs:43-54).  `altDeg` and `azDeg` are the numbers stored in the
horizontal direction, whose components are in degrees (src/coordinates/horizontal.rs:275). -/
structure AzElRange where
  altDeg : ℝ
  azDeg : ℝ
  range : ℝ
  rangeRate : ℝ
  lightTime : ℝ
  status : Status

/-- The angles computed in `azimuth_elevation_range` (az_el_range.rs:85-94), in radians: azimuth
and elevation of a unit vector. -/
noncomputable def azel (dir : Vec3) (frame : LocalFrame) : ℝ × ℝ :=
  let e := inner ℝ dir frame.basis.1
  let n := inner ℝ dir frame.basis.2.1
  let u := inner ℝ dir frame.basis.2.2
  let az := atan2 e n
  (if az < 0 then az + tau else az, Real.arcsin u)

/-- `azimuth_elevation_range` (az_el_range.rs:72-108).  `line_of_sight_with_distance` of `affn` is
the unit vector to the target and its distance; the positions are assumed distinct. -/
noncomputable def azimuthElevationRange (op ov tp tv : Vec3) (frame : LocalFrame) : AzElRange :=
  let rng := ‖tp - op‖
  let dir := (1 / rng) • (tp - op)
  let a := azel dir frame
  let relV := tv - ov
  ⟨a.2, a.1, rng, relV 0 * dir 0 + relV 1 * dir 1 + relV 2 * dir 2, rng / 299792458, .clear⟩

/-! ## Orbit-relative quantities -/

/-- The cross product of two vectors. -/
noncomputable def cross (a b : Vec3) : Vec3 :=
  !₂[a 1 * b 2 - a 2 * b 1, a 2 * b 0 - a 0 * b 2, a 0 * b 1 - a 1 * b 0]

/-- `Direction::new` of `affn`. -/
noncomputable def unit (v : Vec3) : Vec3 := (1 / ‖v‖) • v

/-- `beta_angle` (src/mission/geometry/orbit_relative.rs:23-42); `none` is the panic of the
`expect` on parallel position and velocity. -/
noncomputable def betaAngle (pos vel sun : Vec3) : Option ℝ :=
  let h := cross (unit pos) (unit vel)
  if h = 0 then none
  else some (Real.arcsin (clamp (inner ℝ (unit h) sun) (-1) 1))

/-- `local_solar_time` (orbit_relative.rs:49-55), in seconds. -/
noncomputable def localSolarTime (lon sunLon : ℝ) : ℝ :=
  let diff := remEuclid (lon - sunLon) tau
  let hours := 12 + diff * 24 / tau
  remEuclid hours 24 * 3600

/-- `ltan` (orbit_relative.rs:64-68), in seconds. -/
noncomputable def ltan (raan sunRa : ℝ) : ℝ :=
  let diff := remEuclid (raan - sunRa) tau
  remEuclid (12 + diff * 24 / tau) 24 * 3600

/-! ## Fields of view -/

/-- `Fov` (src/mission/geometry/fov.rs:10-24). -/
inductive Fov
  | conical (halfAngle : ℝ)
  | rectangular (acrossTrack alongTrack : ℝ)

/-- `Fov::contains_boresight` (fov.rs:37-52). -/
noncomputable def Fov.contains (f : Fov) (offAxis : ℝ) : Bool :=
  match f with
  | .conical half => decide (|offAxis| ≤ half)
  | .rectangular x y =>
    let hx := x / 2
    let hy := y / 2
    decide (|offAxis| ≤ if hx ≤ hy then hx else hy)

/-! ## Terrain masks -/

/-- Insertion into a list ordered by azimuth, after the equal ones: with `sortAz` the stable sort
of `slice::sort_by`. -/
noncomputable def insertAz (x : ℝ × ℝ) : List (ℝ × ℝ) → List (ℝ × ℝ)
  | [] => [x]
  | y :: l => if x.1 ≤ y.1 then x :: y :: l else y :: insertAz x l

/-- The stable sort by azimuth. -/
noncomputable def sortAz : List (ℝ × ℝ) → List (ℝ × ℝ)
  | [] => []
  | x :: l => insertAz x (sortAz l)

/-- `TerrainMask::new` (src/mission/geometry/terrain_mask.rs:22-29). -/
noncomputable def newMask (samples : List (ℝ × ℝ)) : List (ℝ × ℝ) :=
  (sortAz samples).map fun p => (remEuclid p.1 tau, p.2)

/-- The interpolation between two samples (terrain_mask.rs:49-50, 57-62). -/
noncomputable def between (az : ℝ) (p q : ℝ × ℝ) : ℝ :=
  let t := if q.1 = p.1 then 0 else (az - p.1) / (q.1 - p.1)
  p.2 + t * (q.2 - p.2)

/-- The loop of `elevation_at` (terrain_mask.rs:40-52) over the samples that remain; `first` is the
first sample. -/
noncomputable def maskLoop (az : ℝ) (first : ℝ × ℝ) : List (ℝ × ℝ) → Option ℝ
  | [] => none
  | [p] =>
    let q := (first.1 + tau, first.2)
    if p.1 ≤ az ∧ az ≤ q.1 then some (between az p q) else none
  | p :: q :: l =>
    if p.1 ≤ az ∧ az ≤ q.1 then some (between az p q) else maskLoop az first (q :: l)

/-- `TerrainMask::elevation_at` (terrain_mask.rs:32-63). -/
noncomputable def elevationAt (mask : List (ℝ × ℝ)) (azimuth : ℝ) : ℝ :=
  match mask with
  | [] => 0
  | first :: rest =>
    let az := remEuclid azimuth tau
    match maskLoop az first (first :: rest) with
    | some e => e
    | none =>
      let last := (first :: rest).getLast (List.cons_ne_nil _ _)
      between az (last.1 - tau, last.2) first

/-- `TerrainMask::clears` (terrain_mask.rs:67-69). -/
noncomputable def clears (mask : List (ℝ × ℝ)) (azimuth elevation : ℝ) : Bool :=
  decide (elevationAt mask azimuth ≤ elevation)

end Verif.Mission
