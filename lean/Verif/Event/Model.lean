import Mathlib.Algebra.Order.Field.Basic
import Mathlib.Order.MinMax

/-
Model of `/repo/src/event/search/intervals.rs`: crossing scan, crossing labels, period builders.

Times and values are elements of one linearly ordered field `F` (Rust: `f64` in typed wrappers).
Rounding and NaN are not modelled. The root finder called by the scan
(`root_finding::brent_with_values`) is a parameter `root lo hi flo fhi g`; it is modelled in
`Verif.RootFinding`. `while` loops carry fuel: `none` means that the loop has not finished within
that many iterations.
-/
namespace Verif.Event

/-- intervals.rs 56-62. -/
structure LabeledCrossing (F : Type) where
  t : F
  direction : Int
deriving DecidableEq, Repr

variable {F : Type} [Field F] [LinearOrder F]

/-- intervals.rs 45. -/
def probeDt : F := 1 / 10 ^ 7

/-- intervals.rs 48. -/
def dedupeEps : F := 1 / 10 ^ 8

/-- `Vec::dedup_by` (std): an element is dropped when `same` holds for it and the last element
kept before it. -/
def dedupFrom {α : Type} (same : α → α → Bool) (last : α) : List α → List α
  | [] => []
  | y :: ys => if same y last then dedupFrom same last ys else y :: dedupFrom same y ys

def dedupBy {α : Type} (same : α → α → Bool) : List α → List α
  | [] => []
  | x :: xs => x :: dedupFrom same x xs

/-- Type of the root finder parameter: `brent_with_values(Interval::new(lo, hi), flo, fhi, g)`. -/
abbrev RootFinder (F : Type) := (lo hi flo fhi : F) → (g : F → F) → Option F

/-- intervals.rs 64-67: stable sort by time, then drop near-duplicates. -/
def sortAndDedup (l : List (LabeledCrossing F)) : List (LabeledCrossing F) :=
  dedupBy (fun a b => decide (|a.t - b.t| < dedupeEps)) (l.mergeSort (fun a b => decide (a.t ≤ b.t)))

/-- intervals.rs 96-103 (also 152-159): the next sample time. -/
def nextTime (tEnd step t : F) : F := if t + step ≤ tEnd then t + step else tEnd

/-- intervals.rs 95-118: the scan loop of `find_crossings`. -/
def findCrossingsLoop (root : RootFinder F) (g : F → F) (tStart tEnd step : F) :
    (fuel : Nat) → (t prev : F) → (crossings : List F) → Option (List F)
  | 0, _, _, _ => none
  | n + 1, t, prev, crossings =>
    if t < tEnd then
      let nextT := nextTime tEnd step t
      let nextV := g nextT
      let crossings :=
        if (prev < 0 ∧ nextV > 0) ∨ (prev > 0 ∧ nextV < 0) then
          match root t nextT prev nextV g with
          | some r => if r ≥ tStart ∧ r ≤ tEnd then crossings ++ [r] else crossings
          | none => crossings
        else crossings
      findCrossingsLoop root g tStart tEnd step n nextT nextV crossings
    else some crossings

/-- intervals.rs 75-121. -/
def findCrossings (root : RootFinder F) (fuel : Nat) (tStart tEnd step : F) (f : F → F)
    (threshold : F) : Option (List F) :=
  let g := fun t => f t - threshold
  findCrossingsLoop root g tStart tEnd step fuel tStart (g tStart) []

/-- intervals.rs 162-168. -/
def bracketDirection (prev nextV : F) : Option Int :=
  if prev < 0 ∧ nextV > 0 then some 1
  else if prev > 0 ∧ nextV < 0 then some (-1)
  else none

/-- intervals.rs 151-185: the scan loop of `find_directed_crossings`. -/
def findDirectedLoop (root : RootFinder F) (g : F → F) (tStart tEnd step : F) :
    (fuel : Nat) → (t prev : F) → (crossings : List (LabeledCrossing F)) →
      Option (List (LabeledCrossing F))
  | 0, _, _, _ => none
  | n + 1, t, prev, crossings =>
    if t < tEnd then
      let nextT := nextTime tEnd step t
      let nextV := g nextT
      let crossings :=
        match bracketDirection prev nextV with
        | some d =>
          match root t nextT prev nextV g with
          | some r => if r ≥ tStart ∧ r ≤ tEnd then crossings ++ [⟨r, d⟩] else crossings
          | none => crossings
        | none => crossings
      findDirectedLoop root g tStart tEnd step n nextT nextV crossings
    else some crossings

/-- intervals.rs 129-189. -/
def findDirectedCrossings (root : RootFinder F) (fuel : Nat) (tStart tEnd step : F) (f : F → F)
    (threshold : F) : Option (List (LabeledCrossing F) × Bool) :=
  let g := fun t => f t - threshold
  let prev := g tStart
  let startAbove : Bool := decide (prev > 0)
  (findDirectedLoop root g tStart tEnd step fuel tStart prev []).map
    (fun cs => (sortAndDedup cs, startAbove))

/-- intervals.rs 263-281: label of one crossing by probing both sides; `none` for a tangency. -/
def labelOne (f : F → F) (threshold : F) (t : F) : Option (LabeledCrossing F) :=
  let before : Bool := decide (f (t - probeDt) > threshold)
  let after : Bool := decide (f (t + probeDt) > threshold)
  if !before && after then some ⟨t, 1⟩
  else if before && !after then some ⟨t, -1⟩
  else none

/-- intervals.rs 249-282. -/
def labelCrossings (crossings : List F) (f : F → F) (threshold : F) : List (LabeledCrossing F) :=
  let sorted := crossings.mergeSort (fun a b => decide (a ≤ b))
  let deduped := dedupBy (fun a b => decide (|a - b| < dedupeEps)) sorted
  deduped.filterMap (labelOne f threshold)

/-- intervals.rs 345-347: `a + (b - a) * 0.5`. -/
def midpoint (a b : F) : F := a + (b - a) * (1 / 2)

/-- intervals.rs 333-354: enter/exit pairing with the midpoint check. -/
def abovePairs (f : F → F) (threshold tStart tEnd : F) : List (LabeledCrossing F) → List (F × F)
  | [] => []
  | x :: rest =>
    if x.direction = 1 then
      let keep := fun (exitT : F) =>
        let mid := midpoint x.t exitT
        if mid ≥ tStart ∧ mid ≤ tEnd ∧ f mid > threshold then [(x.t, exitT)] else []
      match rest with
      | y :: rest' =>
        if y.direction = -1 then keep y.t ++ abovePairs f threshold tStart tEnd rest'
        else keep tEnd ++ abovePairs f threshold tStart tEnd (y :: rest')
      | [] => keep tEnd
    else abovePairs f threshold tStart tEnd rest
termination_by l => l.length

/-- intervals.rs 295-357. -/
def buildAbovePeriods (labeled : List (LabeledCrossing F)) (tStart tEnd : F) (startAbove : Bool)
    (f : F → F) (threshold : F) : List (F × F) :=
  match labeled with
  | [] => if startAbove then [(tStart, tEnd)] else []
  | x :: rest =>
    if startAbove ∧ x.direction = -1 then
      let mid := midpoint tStart x.t
      (if f mid > threshold then [(tStart, x.t)] else []) ++ abovePairs f threshold tStart tEnd rest
    else abovePairs f threshold tStart tEnd (x :: rest)

/-- intervals.rs 390-408: enter/exit pairing without midpoint check. -/
def directedPairs (tEnd : F) : List (LabeledCrossing F) → List (F × F)
  | [] => []
  | x :: rest =>
    if x.direction = 1 then
      let keep := fun (exitT : F) => if x.t < exitT then [(x.t, exitT)] else []
      match rest with
      | y :: rest' =>
        if y.direction = -1 then keep y.t ++ directedPairs tEnd rest'
        else keep tEnd ++ directedPairs tEnd (y :: rest')
      | [] => keep tEnd
    else directedPairs tEnd rest
termination_by l => l.length

/-- intervals.rs 364-411. -/
def buildAbovePeriodsDirected (labeled : List (LabeledCrossing F)) (tStart tEnd : F)
    (startAbove : Bool) : List (F × F) :=
  match labeled with
  | [] => if startAbove then [(tStart, tEnd)] else []
  | x :: rest =>
    if startAbove ∧ x.direction = -1 then
      (if tStart < x.t then [(tStart, x.t)] else []) ++ directedPairs tEnd rest
    else directedPairs tEnd (x :: rest)

/-- intervals.rs 420-434. -/
def aboveThresholdPeriods (root : RootFinder F) (fuel : Nat) (tStart tEnd step : F) (f : F → F)
    (threshold : F) : Option (List (F × F)) :=
  (findCrossings root fuel tStart tEnd step f threshold).map (fun cs =>
    buildAbovePeriods (labelCrossings cs f threshold) tStart tEnd (decide (f tStart > threshold)) f
      threshold)

/-- intervals.rs 441-453. -/
def aboveThresholdPeriodsDirected (root : RootFinder F) (fuel : Nat) (tStart tEnd step : F)
    (f : F → F) (threshold : F) : Option (List (F × F)) :=
  (findDirectedCrossings root fuel tStart tEnd step f threshold).map (fun r =>
    buildAbovePeriodsDirected r.1 tStart tEnd r.2)

/-- intervals.rs 210-237: one window of `find_crossings_in_segments`. -/
def segmentCrossing (root : RootFinder F) (g : F → F) (tStart tEnd : F) (a b : F) : List F :=
  if a ≥ b then []
  else
    let fa := g a
    let fb := g b
    if |fa| < 1 / 10 ^ 12 then [a]
    else if |fb| < 1 / 10 ^ 12 then [b]
    else if (fa < 0 ∧ fb > 0) ∨ (fa > 0 ∧ fb < 0) then
      match root a b fa fb g with
      | some r => if r ≥ tStart ∧ r ≤ tEnd then [r] else []
      | none => []
    else []

/-- intervals.rs 193-240 (`key_times.windows(2)`). -/
def findCrossingsInSegments (root : RootFinder F) (f : F → F) (threshold tStart tEnd : F) :
    List F → List F
  | a :: b :: rest =>
    segmentCrossing root (fun t => f t - threshold) tStart tEnd a b ++
      findCrossingsInSegments root f threshold tStart tEnd (b :: rest)
  | _ => []

/-- intervals.rs 457-471. -/
def aboveThresholdPeriodsSegmented (root : RootFinder F) (keyTimes : List F) (tStart tEnd : F)
    (f : F → F) (threshold : F) : List (F × F) :=
  buildAbovePeriods
    (labelCrossings (findCrossingsInSegments root f threshold tStart tEnd keyTimes) f threshold)
    tStart tEnd (decide (f tStart > threshold)) f threshold

/-- Period algebra of the external crate `tempoch` (`Interval::complement`, `intersect_many`),
called at intervals.rs 538-551. -/
structure PeriodAlgebra (F : Type) where
  complement : F × F → List (F × F) → List (F × F)
  intersect : List (F × F) → List (F × F) → List (F × F)

/-- intervals.rs 480-495. -/
def inRangePeriods (alg : PeriodAlgebra F) (root : RootFinder F) (fuel : Nat) (tStart tEnd step : F)
    (f : F → F) (hMin hMax : F) : Option (List (F × F)) := do
  let aboveMin ← aboveThresholdPeriods root fuel tStart tEnd step f hMin
  let aboveMax ← aboveThresholdPeriods root fuel tStart tEnd step f hMax
  let belowMax := alg.complement (tStart, tEnd) aboveMax
  pure (alg.intersect aboveMin belowMax)

/-- intervals.rs 498-513. -/
def inRangePeriodsDirected (alg : PeriodAlgebra F) (root : RootFinder F) (fuel : Nat)
    (tStart tEnd step : F) (f : F → F) (hMin hMax : F) : Option (List (F × F)) := do
  let aboveMin ← aboveThresholdPeriodsDirected root fuel tStart tEnd step f hMin
  let aboveMax ← aboveThresholdPeriodsDirected root fuel tStart tEnd step f hMax
  let belowMax := alg.complement (tStart, tEnd) aboveMax
  pure (alg.intersect aboveMin belowMax)

end Verif.Event
