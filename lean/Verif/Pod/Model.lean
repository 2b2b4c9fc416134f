import Mathlib.Analysis.SpecialFunctions.Trigonometric.Deriv
import Mathlib.Analysis.SpecialFunctions.Log.Basic
import Mathlib.Analysis.SpecialFunctions.Sqrt
import Mathlib.Analysis.InnerProductSpace.PiL2
import Mathlib.LinearAlgebra.Matrix.ToLin

/-
Model of the precise-orbit layer: process noise (`/repo/src/pod/process/noise.rs`), propagation helpers
(`/repo/src/pod/propagation/{integrators,variational}.rs`), quality control (`/repo/src/pod/qc`), thrust arcs
(`/repo/src/pod/force/{thrust,low_thrust,empirical_periodic}.rs`) and observations
(`/repo/src/pod/observation/{corrections,gnss_obs,slr_obs,batch}.rs`).

Finite real numbers: the tests for infinities and NaN are left out, as are rounding and overflow. Positions and
velocities are vectors of three numbers in kilometres and kilometres per second. The integrators of the crate
`principia`, its local orbital frame and the instants of `tempoch` are parameters.
-/
namespace Verif.Pod

/-- Three components in GCRS axes. -/
abbrev Vec3 := EuclideanSpace ℝ (Fin 3)

/-! ### Process noise -/

/-- pod_error.rs, the reasons of `InvalidProcessNoise`. -/
inductive NoiseError where
  | sigma | tau | dt | psd | empirical
  deriving DecidableEq

/-- process/noise.rs 58-65. -/
structure GaussMarkov where
  sigma : ℝ
  tau : ℝ

/-- process/noise.rs 74-88. -/
noncomputable def GaussMarkov.varianceAfter (g : GaussMarkov) (dt : ℝ) : Except NoiseError ℝ :=
  if g.sigma < 0 then .error .sigma
  else if g.tau ≤ 0 then .error .tau
  else .ok (g.sigma ^ 2 * (1 - Real.exp (-2 * dt / g.tau)))

/-- process/noise.rs 110-121. -/
structure NoiseModel where
  psd : Fin 3 → ℝ
  drag : Option GaussMarkov
  srp : Option GaussMarkov
  empirical : Option (Fin 3 → ℝ)

/-- process/noise.rs 124-128. -/
def NoiseModel.dim (m : NoiseModel) : Nat :=
  6 + (if m.drag.isSome then 1 else 0) + (if m.srp.isSome then 1 else 0) + (if m.empirical.isSome then 3 else 0)

/-- `Vec<Vec<f64>>`; only the entries below the dimension exist. -/
abbrev Table := Nat → Nat → ℝ

/-- `q[i][j] = v`. -/
def put (q : Table) (i j : Nat) (v : ℝ) : Table := fun k l => if k = i ∧ l = j then v else q k l

/-- process/noise.rs 158-171, one turn for each axis in the list. -/
noncomputable def axes (m : NoiseModel) (dt : ℝ) : List (Fin 3) → Table → Except NoiseError Table
  | [], q => .ok q
  | i :: t, q =>
    if m.psd i < 0 then .error .psd
    else
      let cross := m.psd i * (dt * dt) / 2
      axes m dt t (put (put (put (put q i i (m.psd i * (dt * dt * dt) / 3)) (3 + i) (3 + i) (m.psd i * dt))
        i (3 + i) cross) (3 + i) i cross)

/-- process/noise.rs 174-181, one of the two scale parameters: the next index and the table. -/
noncomputable def scale (o : Option GaussMarkov) (dt : ℝ) (idx : Nat) (q : Table) : Except NoiseError (Nat × Table) :=
  match o with
  | none => .ok (idx, q)
  | some g => match g.varianceAfter dt with
    | .error e => .error e
    | .ok v => .ok (idx + 1, put q idx idx v)

/-- process/noise.rs 183-191, one turn for each axis in the list. -/
noncomputable def whites (s : Fin 3 → ℝ) (dt : ℝ) (idx : Nat) : List (Fin 3) → Table → Except NoiseError Table
  | [], q => .ok q
  | k :: t, q =>
    if s k < 0 then .error .empirical else whites s dt idx t (put q (idx + k) (idx + k) (s k * s k * dt))

/-- process/noise.rs 145-193. -/
noncomputable def NoiseModel.qMatrix (m : NoiseModel) (dt : ℝ) : Except NoiseError Table :=
  if dt < 0 then .error .dt
  else match axes m dt [0, 1, 2] (fun _ _ => 0) with
    | .error e => .error e
    | .ok q => match scale m.drag dt 6 q with
      | .error e => .error e
      | .ok (i, q) => match scale m.srp dt i q with
        | .error e => .error e
        | .ok (i, q) => match m.empirical with
          | none => .ok q
          | some s => whites s dt i [0, 1, 2] q

/-- The sum over `l[j][..i]` and `l[i][..i]`, process/noise.rs 228 and 237-242. -/
def before (l : Table) (i j : Nat) : ℝ := ∑ k ∈ Finset.range i, l j k * l i k

/-- process/noise.rs 234-246, the loop of a vanishing pivot. -/
noncomputable def zeroColumn (a : Table) (i : Nat) : List Nat → Table → Option Table
  | [], l => some l
  | j :: t, l => if 1e-12 < |a j i - before l i j| then none else zeroColumn a i t (put l j i 0)

/-- process/noise.rs 248-256, the loop of a pivot that does not vanish. -/
noncomputable def column (a : Table) (i : Nat) (p : ℝ) : List Nat → Table → Table
  | [], l => l
  | j :: t, l => column a i p t (put l j i ((a j i - before l i j) / p))

/-- process/noise.rs 224-258, the turns of the loop for the indices in the list. -/
noncomputable def pivots (a : Table) (n : Nat) : List Nat → Table → Bool
  | [], _ => true
  | i :: t, l =>
    let s := a i i - before l i i
    if s < -1e-18 then false
    else
      let p := Real.sqrt (max s 0)
      let l := put l i i p
      if p = 0 then match zeroColumn a i (List.range' (i + 1) (n - (i + 1))) l with
        | none => false
        | some l => pivots a n t l
      else pivots a n t (column a i p (List.range' (i + 1) (n - (i + 1))) l)

/-- process/noise.rs 220-261. -/
noncomputable def matrixIsPsd (a : Table) (n : Nat) : Bool := pivots a n (List.range n) (fun _ _ => 0)

/-- process/noise.rs 214-217. -/
noncomputable def NoiseModel.isPsd (m : NoiseModel) (dt : ℝ) : Except NoiseError Bool :=
  match m.qMatrix dt with
  | .error e => .error e
  | .ok q => .ok (matrixIsPsd q m.dim)

/-- process/noise.rs 290-300. -/
structure Segment where
  duration : ℝ
  pos : ℝ
  vel : ℝ

/-- process/noise.rs 330-357. -/
inductive ProcessNoise where
  | none
  | white (pos vel : ℝ)
  | piecewise (intervals : List Segment)

/-- process/noise.rs 414-420. -/
noncomputable def lookUp (elapsed : ℝ) : ℝ → List Segment → Option (ℝ × ℝ)
  | _, [] => Option.none
  | c, s :: t => if elapsed < c + s.duration then some (s.pos, s.vel) else lookUp elapsed (c + s.duration) t

/-- process/noise.rs 403-426. -/
noncomputable def ProcessNoise.sigmaAt (p : ProcessNoise) (elapsed : ℝ) : ℝ × ℝ :=
  match p with
  | .none => (0, 0)
  | .white a b => (a, b)
  | .piecewise l => match l.getLast? with
    | Option.none => (0, 0)
    | some last => (lookUp elapsed 0 l).getD (last.pos, last.vel)

/-! ### Propagation -/

/-- propagation/integrators.rs 109-122: `none` refuses the step, otherwise the number of steps and their size.
A duration of zero returns the state itself (zero steps here). -/
noncomputable def rk4Steps (step dt : ℝ) : Option (Nat × ℝ) :=
  if dt = 0 then some (0, 0)
  else if |step| ≤ 0 then none
  else
    let n := (max (⌈|dt| / |step|⌉ : ℝ) 1)
    some (⌊n⌋₊, dt / ⌊n⌋₊)

/-- A 6×6 matrix. -/
abbrev Mat6 := Matrix (Fin 6) (Fin 6) ℝ

/-- propagation/variational.rs 282-290: `step` is `principia::propagate_stm` with the force and step fixed. -/
def variationalLoop {S ε : Type} (step : S → Except ε (S × Mat6)) : Nat → S → Mat6 → Except ε (List (S × Mat6))
  | 0, _, _ => .ok []
  | n + 1, s, phi => match step s with
    | .error e => .error e
    | .ok (s', f) => match variationalLoop step n s' (f * phi) with
      | .error e => .error e
      | .ok l => .ok ((s', f * phi) :: l)

/-- propagation/variational.rs 270-293. -/
def variational {S ε : Type} (step : S → Except ε (S × Mat6)) (initial : S) (n : Nat) : Except ε (List (S × Mat6)) :=
  variationalLoop step n initial 1

/-- propagation/variational.rs 124-157: `y p` is the final state with the parameter at `p`. -/
noncomputable def centralDifference (y : ℝ → Fin 6 → ℝ) (p ε : ℝ) : Option (Fin 6 → ℝ) :=
  if ε ≤ 0 then none else some fun i => (y (p + ε) i - y (p - ε) i) * (1 / (2 * ε))

/-- The fold of `f64::max` from zero. -/
noncomputable def maxOf (l : List ℝ) : ℝ := l.foldl max 0

/-- propagation/variational.rs 53-61. -/
noncomputable def maxRelativeDifference (a b : Fin 6 → ℝ) : ℝ :=
  let s := maxOf ((List.finRange 6).map fun i => |b i|)
  let s := if 0 < s then s else 1
  maxOf ((List.finRange 6).map fun i => |a i - b i| / s)

/-! ### Quality control -/

/-- qc/residuals.rs 34-48. -/
structure Stats where
  n : Nat
  mean : ℝ
  std : ℝ
  rms : ℝ
  min : ℝ
  max : ℝ

/-- `ResidualStats::default()`, derived. -/
def Stats.zero : Stats := ⟨0, 0, 0, 0, 0, 0⟩

/-- qc/residuals.rs 52-88. The extremes start at the infinities, so after the first value they are that value. -/
noncomputable def Stats.fromSlice : List ℝ → Stats
  | [] => Stats.zero
  | v :: t =>
    let l := v :: t
    let n : Nat := l.length
    let mean := l.sum / n
    let var := (l.map fun x => (x - mean) * (x - mean)).sum
    let sq := (l.map fun x => x * x).sum
    ⟨n, mean, if 1 < n then Real.sqrt (var / (n - 1)) else 0, Real.sqrt (sq / n),
      t.foldl (fun m x => if x < m then x else m) v, t.foldl (fun m x => if m < x then x else m) v⟩

/-- `buckets.entry(g).or_default().push(v)` on a sorted map, qc/residuals.rs 109. -/
def pushTo (g : String) (v : ℝ) : List (String × List ℝ) → List (String × List ℝ)
  | [] => [(g, [v])]
  | (k, l) :: t => if g = k then (k, l ++ [v]) :: t
    else if g < k then (g, [v]) :: (k, l) :: t
    else (k, l) :: pushTo g v t

/-- qc/residuals.rs 102-120: the groups in order and the overall statistics. -/
noncomputable def fromPairs (items : List (String × ℝ)) : List (String × Stats) × Stats :=
  ((items.foldl (fun b p => pushTo p.1 p.2 b) []).map fun p => (p.1, Stats.fromSlice p.2),
    Stats.fromSlice (items.map Prod.snd))

/-- qc/orbit_compare.rs 39-49. -/
structure RtnDiff where
  jd : ℝ
  r : ℝ
  t : ℝ
  n : ℝ

/-- An orbit state: epoch, position and velocity. -/
structure OrbitState where
  jd : ℝ
  position : Vec3
  velocity : Vec3

/-- qc/orbit_compare.rs 72-91: `local'` is the rotation of the local orbital frame of `principia`, absent for a state
that has none (the call of `expect` panics, here `none`). -/
noncomputable def rtnDiff (local' : OrbitState → Option (Vec3 → Vec3)) :
    List OrbitState → List OrbitState → Option (List RtnDiff)
  | e :: es, r :: rs => match local' r with
    | none => none
    | some f =>
      let d := f (e.position - r.position)
      match rtnDiff local' es rs with
      | none => none
      | some l => some (⟨e.jd, d 0 * 1000, d 1 * 1000, d 2 * 1000⟩ :: l)
  | _, _ => some []

/-- qc/orbit_compare.rs 55-68. -/
structure Summary where
  n : Nat
  rms3d : ℝ
  rmsR : ℝ
  rmsT : ℝ
  rmsN : ℝ

/-- qc/orbit_compare.rs 94-124. -/
noncomputable def rtnSummary (l : List RtnDiff) : Summary :=
  if l.length = 0 then ⟨0, 0, 0, 0, 0⟩
  else
    let rms (f : RtnDiff → ℝ) := Real.sqrt ((l.map fun d => f d * f d).sum / l.length)
    let r := rms RtnDiff.r
    let t := rms RtnDiff.t
    let n := rms RtnDiff.n
    ⟨l.length, Real.sqrt (r * r + t * t + n * n), r, t, n⟩

/-! ### Thrust -/

/-- force/thrust.rs 50-68. -/
inductive ManeuverError where
  | direction | isp | mass | interval
  deriving DecidableEq

/-- force/thrust.rs 33-46; instants in seconds, thrust in newtons. -/
structure ThrustArc where
  start : ℝ
  stop : ℝ
  thrust : ℝ
  isp : ℝ
  direction : Vec3

/-- force/thrust.rs 24. -/
noncomputable def g0 : ℝ := 9.80665

/-- force/thrust.rs 74-108. -/
noncomputable def ThrustArc.make (start stop thrust isp : ℝ) (direction : Vec3) : Except ManeuverError ThrustArc :=
  if isp ≤ 0 then .error .isp
  else if ¬ start < stop then .error .interval
  else
    let mag := Real.sqrt (direction 0 * direction 0 + direction 1 * direction 1 + direction 2 * direction 2)
    if ¬ 0 < mag then .error .direction
    else .ok ⟨start, stop, thrust, isp, !₂[direction 0 / mag, direction 1 / mag, direction 2 / mag]⟩

/-- force/thrust.rs 111-113. -/
def ThrustArc.Active (a : ThrustArc) (t : ℝ) : Prop := a.start ≤ t ∧ t < a.stop

open Classical in
/-- force/thrust.rs 120-136. -/
noncomputable def thrustAcceleration (a : ThrustArc) (mass t : ℝ) : Except ManeuverError Vec3 :=
  if mass ≤ 0 then .error .mass
  else if ¬ a.Active t then .ok !₂[0, 0, 0]
  else
    let f := a.thrust / mass
    .ok !₂[f * a.direction 0, f * a.direction 1, f * a.direction 2]

/-- force/thrust.rs 141-147. -/
noncomputable def massFlowRate (thrust isp : ℝ) : Except ManeuverError ℝ :=
  if isp ≤ 0 then .error .isp else .ok (thrust / (isp * g0))

/-- force/low_thrust.rs 39-48. -/
structure ThrustRecord where
  massBefore : ℝ
  propellant : ℝ
  deltaV : ℝ
  duration : ℝ

/-- force/low_thrust.rs 75-80. -/
structure Ledger where
  mass : ℝ
  deltaV : ℝ
  propellant : ℝ
  records : List ThrustRecord

/-- force/low_thrust.rs 89-100. -/
noncomputable def Ledger.new (mass : ℝ) : Except ManeuverError Ledger :=
  if mass ≤ 0 then .error .mass else .ok ⟨mass, 0, 0, []⟩

/-- force/low_thrust.rs 141-175: the new ledger, which is the old one after an error. -/
noncomputable def Ledger.append (s : Ledger) (a : ThrustArc) : Ledger × Except ManeuverError ThrustRecord :=
  let d := a.stop - a.start
  if d ≤ 0 then (s, .error .interval)
  else match massFlowRate a.thrust a.isp with
    | .error e => (s, .error e)
    | .ok mdot =>
      let used := mdot * d
      let after := s.mass - used
      if after ≤ 0 then (s, .error .mass)
      else
        let dv := a.isp * g0 * Real.log (s.mass / after)
        let r : ThrustRecord := ⟨s.mass, used, dv, d⟩
        (⟨after, s.deltaV + dv, s.propellant + used, s.records ++ [r]⟩, .ok r)

/-- force/empirical_periodic.rs 43-59, 82-101. -/
structure Periodic where
  multiplier : Nat
  epoch : ℝ
  period : ℝ
  cos : Vec3
  sin : Vec3

/-- force/empirical_periodic.rs 130-139. -/
noncomputable def Periodic.phase (p : Periodic) (jd : ℝ) : ℝ :=
  let dt := (jd - p.epoch) * 86400
  if p.period ≤ 0 then 0 else p.multiplier * (2 * Real.pi / p.period) * dt

/-- force/empirical_periodic.rs 152-163: `inertial` is the inverse rotation of the local orbital frame. -/
noncomputable def Periodic.acceleration (p : Periodic) (inertial : OrbitState → Option (Vec3 → Vec3)) (s : OrbitState) :
    Option Vec3 :=
  let θ := p.phase s.jd
  let a : Vec3 := !₂[p.cos 0 * Real.cos θ + p.sin 0 * Real.sin θ, p.cos 1 * Real.cos θ + p.sin 1 * Real.sin θ,
    p.cos 2 * Real.cos θ + p.sin 2 * Real.sin θ]
  (inertial s).map fun f => f a

/-! ### Corrections of a range -/

/-- The three built-in corrections, observation/corrections.rs 206-227, 291, 361-383. -/
inductive Correction where
  | phaseCentre (offset : Vec3)
  | shapiro
  | tide (displacement : Vec3)

/-- observation/corrections.rs 294. -/
noncomputable def gm : ℝ := 3.986004418e14

/-- observation/corrections.rs 296. -/
noncomputable def lightSpeed : ℝ := 299792458

/-- observation/corrections.rs 240-261 and 396-416: the range in metres shortened by the shift along the line of
sight. -/
noncomputable def along (shift : Vec3) (range : ℝ) (rx sat : Vec3) : ℝ :=
  let x := sat 0 - rx 0
  let y := sat 1 - rx 1
  let z := sat 2 - rx 2
  let mag := Real.sqrt (x * x + y * y + z * z)
  if mag = 0 then range
  else range - (shift 0 * (x / mag) + shift 1 * (y / mag) + shift 2 * (z / mag)) * 1000

/-- Distance from the geocentre as written out in the code. -/
noncomputable def radius (p : Vec3) : ℝ := Real.sqrt (p 0 * p 0 + p 1 * p 1 + p 2 * p 2)

/-- observation/corrections.rs 305-331. -/
noncomputable def shapiroRange (range : ℝ) (rx sat : Vec3) : ℝ :=
  let sum := radius rx * 1000 + radius sat * 1000
  let den := sum - range
  if 0 < den then range + 2 * gm / (lightSpeed * lightSpeed) * Real.log ((sum + range) / den) else range

/-- `apply_to_range` of the three corrections. -/
noncomputable def Correction.applyTo (c : Correction) (range : ℝ) (rx sat : Vec3) : ℝ :=
  match c with
  | .phaseCentre o => along o range rx sat
  | .shapiro => shapiroRange range rx sat
  | .tide d => along d range rx sat

/-- observation/corrections.rs 157-168. -/
noncomputable def applyAll (cs : List Correction) (range : ℝ) (rx sat : Vec3) : ℝ :=
  cs.foldl (fun r c => c.applyTo r rx sat) range

/-! ### Observations -/

/-- observation/gnss_obs.rs 73-88. -/
structure Klobuchar where
  alpha : Fin 4 → ℝ
  beta : Fin 4 → ℝ
  lat : ℝ
  lon : ℝ
  elevation : ℝ
  azimuth : ℝ
  utc : ℝ

/-- observation/gnss_obs.rs 157-164. -/
noncomputable def saastamoinen (elevation : ℝ) : ℝ :=
  let s := max (Real.sin elevation) 0.07
  0.002277 * 1013.25 / s + 0.002277 * (1255 / 288.15 + 0.05) * 11.691 / s

/-- observation/gnss_obs.rs 169-223. -/
noncomputable def klobuchar (p : Klobuchar) : ℝ :=
  let psi := 0.0137 / (p.elevation + 0.11) - 0.022
  let phi := max (-0.416) (min 0.416 (p.lat + psi * Real.cos (p.azimuth * Real.pi)))
  let c := Real.cos (phi * Real.pi)
  let lambda := if 1e-9 < |c| then p.lon + psi * Real.sin (p.azimuth * Real.pi) / c else p.lon
  let phiM := phi + 0.064 * Real.cos ((lambda - 1.617) * Real.pi)
  let t := 4.32e4 * lambda + p.utc
  let t := t - ⌊t / 86400⌋ * 86400
  let period := max (p.beta 0 + p.beta 1 * phiM + p.beta 2 * phiM * phiM + p.beta 3 * phiM * phiM * phiM) 72000
  let amp := max (p.alpha 0 + p.alpha 1 * phiM + p.alpha 2 * phiM * phiM + p.alpha 3 * phiM * phiM * phiM) 0
  let obliquity := 1 + 16 * (0.53 - p.elevation) ^ 3
  let x := 2 * Real.pi * (t - 50400) / period
  let vertical := if |x| < Real.pi / 2 then 5e-9 + amp * Real.cos x else 5e-9
  obliquity * vertical * lightSpeed

/-- observation/gnss_obs.rs 117-124. -/
inductive Iono where
  | free
  | klobuchar (p : Klobuchar)
  | none

/-- observation/gnss_obs.rs 137-147. -/
inductive Trop where
  | saastamoinen (elevation : ℝ)
  | none

/-- observation/gnss_obs.rs 309-328 and 434-455; `ambiguity` only for the carrier phase. The speed of light of the
relativistic term is the constant `C` of the crate `qtty`, whose unit is not visible: it is a field of `Setup`. -/
structure GnssObs where
  prn : String
  epoch : ℝ
  measured : ℝ
  sat : Vec3
  vel : Vec3
  trop : Trop
  iono : Iono
  frequency : ℝ
  ambiguity : Int

/-- The provider bundle (two clock readings in metres) and the constants from other crates: the rotation rate of
the Earth, `C.value()` and `C` in kilometres per second. -/
structure Setup where
  receiverClock : ℝ
  satelliteClock : String → ℝ → ℝ
  omega : ℝ
  c : ℝ
  cKm : ℝ

/-- observation/gnss_obs.rs 228-234. -/
noncomputable def sagnac (u : Setup) (gps rx : Vec3) : ℝ := u.omega * (gps 0 * rx 1 - gps 1 * rx 0) / u.cKm

/-- observation/gnss_obs.rs 237-242. -/
noncomputable def relativisticClock (u : Setup) (pos vel : Vec3) : ℝ :=
  -2 * (pos 0 * vel 0 + pos 1 * vel 1 + pos 2 * vel 2) * 1000 / u.c

/-- observation/gnss_obs.rs 351-364 and 478-490. -/
noncomputable def ionoDelay (i : Iono) (f : ℝ) : ℝ :=
  match i with
  | .free => 0
  | .none => 0
  | .klobuchar p => if 0 < f ∧ 1e6 < |f - 1575420000| then klobuchar p * (1575420000 / f) ^ 2 else klobuchar p

/-- observation/gnss_obs.rs 345-348 and 472-475. -/
noncomputable def tropDelay : Trop → ℝ
  | .none => 0
  | .saastamoinen e => saastamoinen e

/-- observation/gnss_obs.rs 333-373, for a receiver at `rx`. -/
noncomputable def pseudorangeResidual (u : Setup) (o : GnssObs) (rx : Vec3) : ℝ :=
  let rho := ‖rx - o.sat‖ * 1000
  o.measured - (rho + u.receiverClock - u.satelliteClock o.prn o.epoch + tropDelay o.trop + ionoDelay o.iono o.frequency
    + sagnac u o.sat rx * 1000 + relativisticClock u o.sat o.vel)

/-- observation/gnss_obs.rs 497-501. -/
noncomputable def wavelength (f : ℝ) : ℝ := if 0 < f then lightSpeed / f else 0.1903

/-- observation/gnss_obs.rs 460-512: metres and cycles. -/
noncomputable def phaseResidual (u : Setup) (o : GnssObs) (rx : Vec3) : ℝ × ℝ :=
  let rho := ‖rx - o.sat‖ * 1000
  let r := o.measured - (rho + u.receiverClock - u.satelliteClock o.prn o.epoch + tropDelay o.trop
    - ionoDelay o.iono o.frequency + sagnac u o.sat rx * 1000 + relativisticClock u o.sat o.vel
    + o.ambiguity * wavelength o.frequency)
  (r, r / wavelength o.frequency)

/-- observation/slr_obs.rs 161-182. -/
structure SlrObs where
  epoch : ℝ
  measured : ℝ
  station : Vec3
  sat : Vec3
  vel : Vec3
  elevation : ℝ
  wavelength : ℝ

/-- observation/slr_obs.rs 66-68. -/
noncomputable def fLambda (l : ℝ) : ℝ := 0.9650 + 0.0164 / (l * l) + 0.000228 / l ^ 4

/-- observation/slr_obs.rs 76-86. -/
noncomputable def mariniMurray (elevation l : ℝ) : ℝ :=
  let e := max elevation (3 * Real.pi / 180)
  fLambda l * (0.002277 * 1013.25) / (Real.sin e + 0.0014 / (Real.tan e + 0.045))

/-- observation/slr_obs.rs 98-107. -/
noncomputable def shapiroSlr (rRx rSat rho : ℝ) : ℝ :=
  let num := rRx * 1000 + rSat * 1000 + rho * 1000
  let den := rRx * 1000 + rSat * 1000 - rho * 1000
  if 1 < den then 2 * (2 * gm / (lightSpeed * lightSpeed)) * Real.log (num / den) else 0

/-- observation/slr_obs.rs 187-234; the first argument is the state under estimation, which the code does not read. -/
noncomputable def slrResidual (o : SlrObs) (_state : OrbitState) : ℝ :=
  let dt := ‖o.station - o.sat‖ / (lightSpeed / 1000)
  let sat : Vec3 := !₂[o.sat 0 - o.vel 0 * dt, o.sat 1 - o.vel 1 * dt, o.sat 2 - o.vel 2 * dt]
  let rho := ‖o.station - sat‖
  o.measured - (2 * (rho * 1000) + 2 * mariniMurray o.elevation o.wavelength
    + shapiroSlr (radius o.station) (radius sat) rho)

/-- A boxed observation, observation/obs_trait.rs 197-239: its epoch and its residual at a state. -/
structure AnyObs (S R ε : Type) where
  epoch : ℝ
  residual : S → Except ε R

/-- observation/batch.rs 144-147. -/
def EpochsMatch (a b : ℝ) : Prop := |a - b| < 5.8e-12

open Classical in
/-- observation/batch.rs 123-134. -/
noncomputable def residualsWith {S R ε : Type} (obs : List (AnyObs S R ε)) (epoch : ℝ) (s : S) : List (Except ε R) :=
  (obs.filter fun o => EpochsMatch o.epoch epoch).map fun o => o.residual s

open Classical in
/-- observation/batch.rs 109-119; `notConverged` is `LightTimeNotConverged`. -/
noncomputable def residualsAt {S R ε : Type} (obs : List (AnyObs S R ε)) (epoch : ℝ) (notConverged : ε) :
    List (Except ε R) :=
  (obs.filter fun o => EpochsMatch o.epoch epoch).map fun _ => .error notConverged

end Verif.Pod
