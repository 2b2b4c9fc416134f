import Mathlib.Algebra.Order.Field.Basic
import Mathlib.Order.MinMax
import Verif.Event.Model

/-
Model of the crossing engine used by every altitude search of the library:
`/repo/src/event/search/scan_fallback.rs` (uniform scan and Brent refinement) and
`/repo/src/event/search/crossings.rs` (polynomial segments with validation and fallback).

Times and values are elements of one linearly ordered field `F` (Rust: `f64` in typed wrappers).
Rounding, NaN and infinities are not modelled, so the `is_finite` tests always pass; a residual is
never the negative zero, so `signum` is `-1` below zero and `1` from zero up. The diagnostics
counters are dropped (no result depends on them). The external crate `cheby` is a parameter
`fit degree g` that answers with the three observations the code makes of a fitted polynomial.
`while` loops carry fuel: `none` means that the loop has not finished within that many iterations.
-/
namespace Verif.Search
open Verif.Event (LabeledCrossing sortAndDedup nextTime)

variable {F : Type} [Field F] [LinearOrder F]

/-- `f64::EPSILON`. -/
def machineEps : F := 1 / 2 ^ 52

/-- crossings.rs 22. -/
def polyZeroTol : F := 1 / 10 ^ 12

/-- crossings.rs 23, scan_fallback.rs 16. -/
def minSegmentDays : F := 1 / 10 ^ 6

/-- `x.signum() * y.signum() < 0.0`. -/
def opposite (x y : F) : Bool := decide (x < 0) != decide (y < 0)

/-- `f64::clamp`. -/
def clampTo (x lo hi : F) : F := if x < lo then lo else if x > hi then hi else x

/-! ### scan_fallback.rs: Brent -/

/-- scan_fallback.rs 181-188: the loop variables of `brent_f64`. -/
structure BrentVars (F : Type) where
  a : F
  b : F
  c : F
  fa : F
  fb : F
  fc : F
  d : F
  e : F

/-- scan_fallback.rs 268-276. -/
def brentConverged (fb width timeTol resTol : F) : Bool :=
  if |fb| ≤ resTol then true else decide (width ≤ timeTol * 4)

/-- scan_fallback.rs 191-196: the end opposite to `b` is restored. -/
def rebracket (s : BrentVars F) : BrentVars F :=
  if opposite s.fb s.fc then s
  else { s with c := s.a, fc := s.fa, d := s.b - s.a, e := s.b - s.a }

/-- scan_fallback.rs 197-204: the better end becomes `b`. -/
def swapBest (s : BrentVars F) : BrentVars F :=
  if |s.fc| < |s.fb| then
    { s with a := s.b, b := s.c, c := s.b, fa := s.fb, fb := s.fc, fc := s.fb }
  else s

/-- scan_fallback.rs 206. -/
def tol1 (timeTol b : F) : F := 2 * machineEps * |b| + timeTol * (1 / 2)

/-- scan_fallback.rs 216-245: the step and the step before it, `(d, e)`. -/
def chooseStep (t1 xm : F) (s : BrentVars F) : F × F :=
  if t1 ≤ |s.e| ∧ |s.fb| < |s.fa| then
    let sl := s.fb / s.fa
    let pq := if |s.a - s.c| ≤ machineEps then (2 * xm * sl, 1 - sl)
      else
        let q := s.fa / s.fc
        let r := s.fb / s.fc
        (sl * (2 * xm * q * (q - r) - (s.b - s.a) * (r - 1)), (q - 1) * (r - 1) * (sl - 1))
    let q := if 0 < pq.1 then -pq.2 else pq.2
    let p := |pq.1|
    if 2 * p < min (3 * xm * q - |t1 * q|) |s.e * q| then (p / q, s.d) else (xm, xm)
  else (xm, xm)

/-- scan_fallback.rs 249-253: the displacement really made. -/
def displace (t1 xm d : F) : F := if t1 < |d| then d else if xm < 0 then -t1 else t1

/-- scan_fallback.rs 216-254: one step of the loop after the convergence tests. -/
def advance (f : F → F) (timeTol : F) (s : BrentVars F) : BrentVars F :=
  let t1 := tol1 timeTol s.b
  let xm := 1 / 2 * (s.c - s.b)
  let de := chooseStep t1 xm s
  let b := s.b + displace t1 xm de.1
  { a := s.b, b := b, c := s.c, fa := s.fb, fb := f b, fc := s.fc, d := de.1, e := de.2 }

/-- scan_fallback.rs 190-264. -/
def brentLoop (f : F → F) (timeTol resTol : F) : Nat → BrentVars F → Option F
  | 0, s => if brentConverged s.fb |s.c - s.b| timeTol resTol then some s.b else none
  | n + 1, s =>
    let s := swapBest (rebracket s)
    if |1 / 2 * (s.c - s.b)| ≤ tol1 timeTol s.b then
      if brentConverged s.fb |s.c - s.b| timeTol resTol then some s.b
      else brentLoop f timeTol resTol n (advance f timeTol s)
    else if |s.fb| ≤ resTol then some s.b
    else brentLoop f timeTol resTol n (advance f timeTol s)

/-- scan_fallback.rs 156-265. -/
def brentF64 (lo hi flo fhi : F) (f : F → F) (timeTol resTol : F) : Option F :=
  if hi < lo then none
  else if |flo| ≤ resTol then some lo
  else if |fhi| ≤ resTol then some hi
  else if opposite flo fhi = false then none
  else brentLoop f timeTol resTol 100
    { a := lo, b := hi, c := lo, fa := flo, fb := fhi, fc := flo, d := hi - lo, e := hi - lo }

/-! ### scan_fallback.rs: the scan -/

/-- scan_fallback.rs 106-154. -/
def endpointDirection (g : F → F) (t tStart tEnd step : F) : Option Int :=
  let probe := clampTo (step * (1 / 4)) (1 / 10 ^ 7) (1 / 10 ^ 3)
  let leftT := max (t - probe) tStart
  let rightT := min (t + probe) tEnd
  if rightT ≤ leftT then none
  else
    let left := g leftT
    let right := g rightT
    if |t - tStart| ≤ machineEps then
      if 0 < right then some 1 else if right < 0 then some (-1) else none
    else if |t - tEnd| ≤ machineEps then
      if left < 0 then some 1 else if 0 < left then some (-1) else none
    else if left ≤ 0 ∧ 0 < right then some 1
    else if 0 < left ∧ right ≤ 0 then some (-1)
    else none

/-- scan_fallback.rs 46-52 and 64-78: an entry for a sample that is already on the threshold. -/
def sampleEvents (g : F → F) (tStart tEnd step resTol t v : F) : List (LabeledCrossing F) :=
  if |v| ≤ resTol then
    match endpointDirection g t tStart tEnd step with
    | some dir => [⟨t, dir⟩]
    | none => []
  else []

/-- scan_fallback.rs 80-96: the refined crossing of a cell whose ends differ in sign. -/
def refinedEvents (g : F → F) (tStart tEnd timeTol resTol t next v w : F) :
    List (LabeledCrossing F) :=
  if opposite v w then
    match brentF64 t next v w g timeTol resTol with
    | some root => if tStart ≤ root ∧ root ≤ tEnd then [⟨root, if v < 0 then 1 else -1⟩] else []
    | none => []
  else []

/-- scan_fallback.rs 45-100. -/
def scanLoop (g : F → F) (tStart tEnd step timeTol resTol : F) :
    Nat → F → F → Option (List (LabeledCrossing F))
  | 0, _, _ => none
  | n + 1, t, v =>
    if t < tEnd then
      let next := nextTime tEnd step t
      let w := g next
      (scanLoop g tStart tEnd step timeTol resTol n next w).map fun rest =>
        sampleEvents g tStart tEnd step resTol t v ++ sampleEvents g tStart tEnd step resTol next w ++
          refinedEvents g tStart tEnd timeTol resTol t next v w ++ rest
    else some []

/-- scan_fallback.rs 19-104. -/
def scanLabelledCrossings (fuel : Nat) (tStart tEnd step : F) (signal : F → F)
    (threshold timeTol maxResidual : F) : Option (List (LabeledCrossing F)) :=
  if tEnd ≤ tStart then some []
  else
    let g := fun t => signal t - threshold
    (scanLoop g tStart tEnd (max step minSegmentDays) (max timeTol machineEps)
      (max maxResidual polyZeroTol) fuel tStart (g tStart)).map sortAndDedup

/-! ### crossings.rs -/

/-- `altitude/search.rs` 44-67, 97-107: the fields read by this engine. -/
structure Config (F : Type) where
  timeTolerance : F
  segmentLength : F
  degree : Nat
  maxTailNorm : F
  maxResidual : F
  refine : Bool
  refineMargin : F
  minSlope : F
  adaptiveSplit : Bool
  maxSplitDepth : Nat
  scanStep : Option F
  forceScanBaseline : Bool

/-- `altitude/search.rs` 69-83, 112-119, 182: the configuration built from the public options. -/
def Config.ofPublic (timeTolerance : F) : Config F where
  timeTolerance := timeTolerance
  segmentLength := 1 / 2
  degree := 10
  maxTailNorm := 1 / 10 ^ 6
  maxResidual := 1 / 10 ^ 10
  refine := true
  refineMargin := 20 / 1440
  minSlope := 1 / 10 ^ 8
  adaptiveSplit := true
  maxSplitDepth := 2
  scanStep := none
  forceScanBaseline := false

/-- What the code observes of a polynomial fitted by the crate `cheby`: `tail_norm` (none when not
finite), `roots_with`, and `derivative().evaluate`. -/
structure Fitted (F : Type) where
  tailNorm : Option F
  roots : List F
  slope : F → F

/-- `cheby::fit_dyn_from_fn` on `[-1, 1]`: degree, function, and the options passed to
`roots_with` later (crossings.rs 234-245; only data for the external crate). -/
abbrev Fit (F : Type) := Nat → (F → F) → (unitTol zeroTol dedupeEps : F) → Option (Fitted F)

/-- crossings.rs 79-82. -/
def timeFromUnit (a b x : F) : F := a + (b - a) * ((clampTo x (-1) 1 + 1) * (1 / 2))

/-- crossings.rs 254-277. -/
def hiddenSignChange (g : F → F) (a b : F) : Bool :=
  let fs := g a
  let fe := g b
  if opposite fs fe then true
  else
    let fm := g (timeFromUnit a b 0)
    if opposite fs fm || opposite fm fe then true
    else
      [-(1 / 2), 1 / 2].any fun x =>
        let fn := g (timeFromUnit a b x)
        opposite fs fn || opposite fn fe

/-- crossings.rs 350-379: the loop over growing radii; `n` rounds are left. -/
def refineLoop (g : F → F) (a b initial timeTol maxRes : F) : Nat → F → Option F
  | 0, _ => none
  | n + 1, radius =>
    let lo := max (initial - radius) a
    let hi := min (initial + radius) b
    let again : Option F :=
      if initial - radius * 2 ≤ a ∧ b ≤ initial + radius * 2 then none
      else refineLoop g a b initial timeTol maxRes n (radius * 2)
    if lo < hi then
      if |g lo| ≤ maxRes then some lo
      else if |g hi| ≤ maxRes then some hi
      else if opposite (g lo) (g hi) then brentF64 lo hi (g lo) (g hi) g timeTol maxRes
      else again
    else again

/-- crossings.rs 326-382. -/
def refinePreciseRoot (g : F → F) (cfg : Config F) (a b initial : F) : Option F :=
  let t := clampTo initial a b
  if |g t| ≤ cfg.maxResidual then some t
  else refineLoop g a b initial (max cfg.timeTolerance (1 / 10 ^ 12)) cfg.maxResidual 8
    (max cfg.refineMargin (1 / 10 ^ 5))

/-- crossings.rs 384-422. -/
def classifyDirection (g : F → F) (cfg : Config F) (pStart pEnd t : F) : Option Int :=
  let probe := clampTo cfg.refineMargin (1 / 10 ^ 6) (1 / 10 ^ 3)
  let l := max (t - probe) pStart
  let r := min (t + probe) pEnd
  if r ≤ l then none
  else
    let left := g l
    let right := g r
    let eps := max cfg.maxResidual (1 / 10 ^ 12)
    if left ≤ eps ∧ eps < right then some 1
    else if eps < left ∧ right ≤ eps then some (-1)
    else if left < -eps ∧ -eps ≤ right then some 1
    else if -eps ≤ left ∧ right < -eps then some (-1)
    else none

/-- crossings.rs 295-324. -/
def validateCandidate (g : F → F) (cfg : Config F) (pStart pEnd a b x : F) :
    Option (LabeledCrossing F) :=
  let initial := timeFromUnit a b x
  (if cfg.refine then refinePreciseRoot g cfg a b initial else some initial).bind fun refined =>
    if cfg.maxResidual < |g refined| then none
    else (classifyDirection g cfg pStart pEnd refined).map fun dir => ⟨refined, dir⟩

/-- crossings.rs 208-229: all roots validated, or none (the segment is then scanned). -/
def validateAll (g : F → F) (cfg : Config F) (pStart pEnd a b : F) (slope : F → F) :
    List F → Option (List (LabeledCrossing F))
  | [] => some []
  | x :: xs =>
    if |slope x| < cfg.minSlope then none
    else
      (validateCandidate g cfg pStart pEnd a b x).bind fun c =>
        (validateAll g cfg pStart pEnd a b slope xs).map (c :: ·)

/-- crossings.rs 279-293. `signal` minus `threshold` is `g`. -/
def fallbackSegment (fuel : Nat) (signal : F → F) (threshold : F) (cfg : Config F) (step a b : F) :
    Option (List (LabeledCrossing F)) :=
  scanLabelledCrossings fuel a b step signal threshold cfg.timeTolerance cfg.maxResidual

/-- crossings.rs 198-231: the roots of an accepted polynomial. -/
def fromRoots (fuel : Nat) (signal : F → F) (threshold : F) (cfg : Config F)
    (step pStart pEnd a b : F) (p : Fitted F) : Option (List (LabeledCrossing F)) :=
  let g := fun t => signal t - threshold
  if p.roots.isEmpty && hiddenSignChange g a b then fallbackSegment fuel signal threshold cfg step a b
  else
    match validateAll g cfg pStart pEnd a b p.slope p.roots with
    | some cs => some cs
    | none => fallbackSegment fuel signal threshold cfg step a b

/-- crossings.rs 187: the fit is not trusted. -/
def badTail (cfg : Config F) (p : Fitted F) : Bool :=
  match p.tailNorm with
  | none => true
  | some n => decide (cfg.maxTailNorm < n)

/-- crossings.rs 234-245: the options of the root search (without the crate's `effective`). -/
def rootOptions (cfg : Config F) (span : F) : F × F × F :=
  let sp := max span minSegmentDays
  (clampTo (cfg.timeTolerance / sp) machineEps (1 / 4), max cfg.maxResidual polyZeroTol,
    max (cfg.timeTolerance / sp * 4) (1 / 10 ^ 12))

/-- crossings.rs 177-180. -/
def fitSegment (fit : Fit F) (signal : F → F) (threshold : F) (cfg : Config F) (a b : F) :
    Option (Fitted F) :=
  fit (max 4 (min cfg.degree 64)) (fun x => signal (timeFromUnit a b x) - threshold)
    (rootOptions cfg (b - a)).1 (rootOptions cfg (b - a)).2.1 (rootOptions cfg (b - a)).2.2

/-- crossings.rs 163-232; `k` splits are left (`max_split_depth - depth`). -/
def segmentCrossings (fit : Fit F) (fuel : Nat) (signal : F → F) (threshold : F) (cfg : Config F)
    (step pStart pEnd : F) : Nat → F → F → Option (List (LabeledCrossing F))
  | k, a, b =>
    if ¬ 0 < b - a then some []
    else if b - a < minSegmentDays then fallbackSegment fuel signal threshold cfg step a b
    else
      match fitSegment fit signal threshold cfg a b with
      | none => fallbackSegment fuel signal threshold cfg step a b
      | some p =>
        if badTail cfg p then
          if cfg.adaptiveSplit then
            match k with
            | 0 => fallbackSegment fuel signal threshold cfg step a b
            | k + 1 =>
              let mid := a + (b - a) * (1 / 2)
              (segmentCrossings fit fuel signal threshold cfg step pStart pEnd k a mid).bind fun l =>
                (segmentCrossings fit fuel signal threshold cfg step pStart pEnd k mid b).map (l ++ ·)
          else fallbackSegment fuel signal threshold cfg step a b
        else fromRoots fuel signal threshold cfg step pStart pEnd a b p

/-- crossings.rs 118-144. -/
def segmentsLoop (fit : Fit F) (fuel : Nat) (signal : F → F) (threshold : F) (cfg : Config F)
    (step pStart pEnd : F) : Nat → F → Option (List (LabeledCrossing F))
  | 0, _ => none
  | n + 1, t =>
    if t < pEnd then
      let next := nextTime pEnd cfg.segmentLength t
      (segmentCrossings fit fuel signal threshold cfg step pStart pEnd cfg.maxSplitDepth t next).bind
        fun l => (segmentsLoop fit fuel signal threshold cfg step pStart pEnd n next).map (l ++ ·)
    else some []

/-- crossings.rs 86-148: the crossings and whether the signal starts above the threshold. -/
def findLabelledCrossings (fit : Fit F) (fuel : Nat) (pStart pEnd fallbackStep : F)
    (signal : F → F) (threshold : F) (cfg : Config F) :
    Option (List (LabeledCrossing F) × Bool) :=
  if pEnd ≤ pStart then some ([], false)
  else
    let startAbove := decide (threshold < signal pStart)
    let step := cfg.scanStep.getD fallbackStep
    if cfg.forceScanBaseline then
      (scanLabelledCrossings fuel pStart pEnd step signal threshold cfg.timeTolerance
        cfg.maxResidual).map fun l => (l, startAbove)
    else
      (segmentsLoop fit fuel signal threshold cfg step pStart pEnd fuel pStart).map fun l =>
        (sortAndDedup l, startAbove)

end Verif.Search
