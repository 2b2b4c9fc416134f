import Verif.Sky.Model
import Verif.Apparent.Model
import Verif.RootFinding.Model

/-
Model of the dispatch of targets to their altitude and azimuth engines and of the queries built on
it: `/repo/src/event/altitude/provider.rs`, `/repo/src/event/altitude/events.rs` 181-240
(culminations), `/repo/src/event/azimuth/provider.rs`, `/repo/src/event/azimuth/events.rs`.

Angles and times are real numbers. The engines (positions of the Sun, Moon and planets, the stellar
engine) are parameters; the stellar engine is modelled in `Verif.Apparent`. The searches are those
of `Verif.Sky`, `Verif.Event` and `Verif.RootFinding`. The closure that unwraps the azimuth keeps a
state between calls, so the extrema search is modelled a second time with the state of the closure
passed through every call.
-/
namespace Verif.Provider
open Verif.Apparent (Policy)
open Verif.Sky (Unwrap remTau toDeg)
open Verif.RootFinding (GoldenState Kind Extremum nextSample phi goldenMaxIter)

/-- The engines the providers call: `sun_azimuth_rad`, `moon_azimuth_rad`,
`vsop87_planet_azimuth_rad`, `fixed_star_azimuth_rad_with_policy` and the same for altitudes.
`fixed_star_azimuth_rad` is the one with the policy `APPARENT` (stellar/azimuth.rs:26-33,
stellar/altitude_periods.rs:77-84). `ofStar` is `direction::ICRS::from`. -/
structure Engines (Star Direction Planet Site : Type) where
  sunAz : Site → ℝ → ℝ
  moonAz : Site → ℝ → ℝ
  planetAz : Planet → Site → ℝ → ℝ
  directionAz : Direction → Site → ℝ → Policy → ℝ
  sunAlt : Site → ℝ → ℝ
  moonAlt : Site → ℝ → ℝ
  planetAlt : Planet → Site → ℝ → ℝ
  directionAlt : Direction → Site → ℝ → Policy → ℝ
  ofStar : Star → Direction

/-- The types implementing the two traits. -/
inductive Body (Star Direction Planet : Type) where
  | sun
  | moon
  | planet (p : Planet)
  | star (s : Star)
  | direction (d : Direction)

variable {Star Direction Planet Site : Type}

/-- `AzimuthProvider::azimuth_at` (azimuth/provider.rs:238-241, 257-260, 277-281, 290-293,
361-369). -/
def azimuthAt (e : Engines Star Direction Planet Site) (o : Site) (t : ℝ) :
    Body Star Direction Planet → ℝ
  | .sun => e.sunAz o t
  | .moon => e.moonAz o t
  | .planet p => e.planetAz p o t
  | .star s => e.directionAz (e.ofStar s) o t .apparent
  | .direction d => e.directionAz d o t .apparent

/-- `AzimuthProvider::azimuth_at_with_policy`: the default (azimuth/provider.rs:84-92) drops the
policy; only directions define their own (295-308). -/
def azimuthAtWithPolicy (e : Engines Star Direction Planet Site) (o : Site) (t : ℝ) (p : Policy) :
    Body Star Direction Planet → ℝ
  | .direction d => e.directionAz d o t p
  | b => azimuthAt e o t b

/-- `AltitudeProvider::altitude_at` (altitude/provider.rs:104, 171, 242, 257, 308). -/
def altitudeAt (e : Engines Star Direction Planet Site) (o : Site) (t : ℝ) :
    Body Star Direction Planet → ℝ
  | .sun => e.sunAlt o t
  | .moon => e.moonAlt o t
  | .planet p => e.planetAlt p o t
  | .star s => e.directionAlt (e.ofStar s) o t .apparent
  | .direction d => e.directionAlt d o t .apparent

/-- `AltitudeProvider::altitude_at_with_policy` (altitude/provider.rs:32-40, 246-253, 261-274). -/
def altitudeAtWithPolicy (e : Engines Star Direction Planet Site) (o : Site) (t : ℝ) (p : Policy) :
    Body Star Direction Planet → ℝ
  | .star s => e.directionAlt (e.ofStar s) o t p
  | .direction d => e.directionAlt d o t p
  | b => altitudeAt e o t b

/-- `AzimuthProvider::scan_step_hint` (azimuth/provider.rs:181-183, 248-250, 267-270, 378-380). -/
noncomputable def azimuthHint : Body Star Direction Planet → Option ℝ
  | .sun | .moon | .planet _ => some (2 / 24)
  | .star _ | .direction _ => none

/-- `AltitudeProvider::scan_step_hint` (altitude/provider.rs:43-45, 175-177, 318-320). -/
noncomputable def altitudeHint : Body Star Direction Planet → Option ℝ
  | .moon | .planet _ => some (2 / 24)
  | .sun | .star _ | .direction _ => none

/-- `AzimuthQuery` (azimuth/types.rs:116-129). -/
structure Query (Site : Type) where
  observer : Site
  start : ℝ
  stop : ℝ
  minAzimuth : ℝ
  maxAzimuth : ℝ
  tolerance : ℝ
  policy : Policy

/-- `azimuth_range_periods` (azimuth/events.rs:291-328) with the step of `scan_step_for` (61-63). -/
noncomputable def rangePeriods (alg : Event.PeriodAlgebra ℝ) (root : Event.RootFinder ℝ) (fuel : Nat)
    (e : Engines Star Direction Planet Site) (b : Body Star Direction Planet) (q : Query Site) :
    Option (List (ℝ × ℝ)) :=
  Sky.azimuthRangePeriods alg root fuel q.start q.stop ((azimuthHint b).getD (10 / 1440))
    (fun t => azimuthAtWithPolicy e q.observer t q.policy b) q.minAzimuth q.maxAzimuth

/-- `AzimuthProvider::azimuth_periods`: azimuth/provider.rs:243-246, 262-265, 310-315, 371-376, and
for stars 283-286. -/
noncomputable def azimuthPeriods (alg : Event.PeriodAlgebra ℝ) (root : Event.RootFinder ℝ)
    (fuel : Nat) (e : Engines Star Direction Planet Site) (b : Body Star Direction Planet)
    (q : Query Site) : Option (List (ℝ × ℝ)) :=
  let b := match b with
    | .star s => .direction (e.ofStar s)
    | b => b
  if q.stop - q.start ≤ 0 then some [] else rangePeriods alg root fuel e b q

/-- `azimuth_crossings` (azimuth/events.rs:182-212). -/
noncomputable def azimuthCrossings (root : Event.RootFinder ℝ) (fuel : Nat)
    (e : Engines Star Direction Planet Site) (b : Body Star Direction Planet) (o : Site)
    (start stop bearing _tolerance : ℝ) : Option (List (Event.LabeledCrossing ℝ)) :=
  Sky.azimuthCrossings root fuel start stop ((azimuthHint b).getD (10 / 1440))
    (fun t => azimuthAtWithPolicy e o t .apparent b) bearing

/-- altitude/types.rs `CulminationEvent`. -/
structure Culmination where
  mjd : ℝ
  altitude : ℝ
  kind : Kind

/-- `generic_culminations` (altitude/events.rs:205-240); altitudes in degrees. -/
noncomputable def culminations (fuel : Nat) (e : Engines Star Direction Planet Site)
    (b : Body Star Direction Planet) (o : Site) (start stop tolerance : ℝ) :
    Option (List Culmination) :=
  (RootFinding.findExtremaTol phi fuel start stop ((altitudeHint b).getD (20 / 1440))
    (fun t => altitudeAtWithPolicy e o t .apparent b) tolerance).map fun l =>
      l.map fun x => ⟨x.t, toDeg x.value, x.kind⟩

/-! ### The extrema search with a closure that keeps a state -/

variable {S : Type}

/-- extrema.rs 129-141. -/
noncomputable def goldenStepM (ph : ℝ) (ev : S → ℝ → S × ℝ) (s : S) (g : GoldenState ℝ) :
    S × GoldenState ℝ :=
  if g.f1 < g.f2 then
    let hi := g.x2
    let x1 := hi - ph * (hi - g.lo)
    let r := ev s x1
    (r.1, { lo := g.lo, hi := hi, x1 := x1, x2 := g.x1, f1 := r.2, f2 := g.f1 })
  else
    let lo := g.x1
    let x2 := lo + ph * (g.hi - lo)
    let r := ev s x2
    (r.1, { lo := lo, hi := g.hi, x1 := g.x2, x2 := x2, f1 := g.f2, f2 := r.2 })

/-- extrema.rs 125-142. -/
noncomputable def goldenLoopM (ph : ℝ) (ev : S → ℝ → S × ℝ) (tol : ℝ) :
    Nat → S → GoldenState ℝ → S × GoldenState ℝ
  | 0, s, g => (s, g)
  | n + 1, s, g =>
    if g.hi - g.lo < tol then (s, g)
    else goldenLoopM ph ev tol n (goldenStepM ph ev s g).1 (goldenStepM ph ev s g).2

/-- extrema.rs 119-123. -/
noncomputable def goldenInitM (ph : ℝ) (ev : S → ℝ → S × ℝ) (s : S) (start stop : ℝ) :
    S × GoldenState ℝ :=
  let x1 := stop - (stop - start) * ph
  let x2 := start + (stop - start) * ph
  let r1 := ev s x1
  let r2 := ev r1.1 x2
  (r2.1, { lo := start, hi := stop, x1 := x1, x2 := x2, f1 := r1.2, f2 := r2.2 })

/-- extrema.rs 110-146. -/
noncomputable def minimizeM (ph : ℝ) (ev : S → ℝ → S × ℝ) (s : S) (start stop tol : ℝ) :
    S × ℝ × ℝ :=
  let i := goldenInitM ph ev s start stop
  let r := goldenLoopM ph ev tol goldenMaxIter i.1 i.2
  let t := (r.2.lo + r.2.hi) / 2
  let v := ev r.1 t
  (v.1, t, v.2)

/-- extrema.rs 163-175: the function is evaluated once more at the place found. -/
noncomputable def maximizeM (ph : ℝ) (ev : S → ℝ → S × ℝ) (s : S) (start stop tol : ℝ) :
    S × ℝ × ℝ :=
  let r := minimizeM ph (fun s t => ((ev s t).1, -(ev s t).2)) s start stop tol
  let v := ev r.1 r.2.1
  (v.1, r.2.1, v.2)

/-- extrema.rs 276-292. -/
noncomputable def detectM (ph : ℝ) (ev : S → ℝ → S × ℝ) (s : S) (tol t0 t2 : ℝ)
    (prevRising nowRising : Bool) : S × List (Extremum ℝ) :=
  if prevRising && !nowRising then
    let r := maximizeM ph ev s t0 t2 tol
    (r.1, [⟨r.2.1, r.2.2, .maximum⟩])
  else if !prevRising && nowRising then
    let r := minimizeM ph ev s t0 t2 tol
    (r.1, [⟨r.2.1, r.2.2, .minimum⟩])
  else (s, [])

/-- extrema.rs 261-299; `f1` is the value kept from the sample at `t1`. -/
noncomputable def extremaLoopM (ph : ℝ) (ev : S → ℝ → S × ℝ) (tEnd step tol : ℝ) :
    Nat → S → (t0 t1 f1 : ℝ) → Bool → List (Extremum ℝ) → Option (List (Extremum ℝ))
  | 0, _, _, _, _, _, _ => none
  | n + 1, s, t0, t1, f1, prevRising, acc =>
    let t2 := nextSample tEnd step t1
    if t2 ≤ t1 then some acc
    else
      let r := ev s t2
      let nowRising : Bool := decide (r.2 > f1)
      let d := detectM ph ev r.1 tol t0 t2 prevRising nowRising
      extremaLoopM ph ev tEnd step tol n d.1 t1 t2 r.2 nowRising (acc ++ d.2)

/-- extrema.rs 229-306. -/
noncomputable def findExtremaM (ph : ℝ) (ev : S → ℝ → S × ℝ) (s : S) (fuel : Nat)
    (start stop step tol : ℝ) : Option (List (Extremum ℝ)) :=
  if step ≤ 0 ∨ start ≥ stop then some []
  else
    let r0 := ev s start
    let t1 := nextSample stop step start
    let r1 := ev r0.1 t1
    (extremaLoopM ph ev stop step tol fuel r1.1 start t1 r1.2 (decide (r1.2 > r0.2)) []).map
      (fun l => l.mergeSort (fun a b => decide (a.t ≤ b.t)))

/-- azimuth/types.rs `AzimuthExtremum`. -/
structure AzimuthExtremum where
  mjd : ℝ
  azimuth : ℝ
  kind : Kind

/-- `azimuth_extrema` (azimuth/events.rs:237-267) for the raw azimuth `az` and the step chosen. -/
noncomputable def extremaOf (fuel : Nat) (az : ℝ → ℝ) (start stop step tolerance : ℝ) :
    Option (List AzimuthExtremum) :=
  (findExtremaM phi (fun (u : Unwrap) t => u.eval (az t)) .init fuel start stop step tolerance).map
    fun l => l.map fun x => ⟨x.t, toDeg (remTau x.value), x.kind⟩

/-- `azimuth_extrema` (azimuth/events.rs:237-267). -/
noncomputable def azimuthExtrema (fuel : Nat) (e : Engines Star Direction Planet Site)
    (b : Body Star Direction Planet) (o : Site) (start stop tolerance : ℝ) :
    Option (List AzimuthExtremum) :=
  extremaOf fuel (fun t => azimuthAtWithPolicy e o t .apparent b) start stop
    ((azimuthHint b).getD (20 / 1440)) tolerance

end Verif.Provider
