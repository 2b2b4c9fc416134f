import Mathlib.Analysis.SpecialFunctions.Pow.Real
import Mathlib.Tactic.FinCases
import Mathlib.Tactic.Linarith
import Mathlib.Tactic.FieldSimp

/-
Model of src/ephemeris/lagrange/{solver,mod,fit}.rs: the Newton solver for the Sun–Earth Lagrange points, the evaluation of
Chebyshev records and the fit of such records.

Real arithmetic; no NaN and no infinity except the initial values, which are `none`. The ephemeris, the three constants GM of the
crate `qtty`, the functions `nodes`, `fit_coeffs` and `evaluate` of the crate `cheby` and the length of the astronomical unit are
parameters. `try_jd_f64`, which refuses only dates that are not finite, is left out.
-/
namespace Verif.Lagrange

open Classical

/-- solver.rs 372. -/
abbrev V := Fin 3 → ℝ
/-- solver.rs 373: rows first. -/
abbrev M := Fin 3 → Fin 3 → ℝ

/-- solver.rs 603-605. -/
def dot (a b : V) : ℝ := a 0 * b 0 + a 1 * b 1 + a 2 * b 2
/-- solver.rs 606-608. -/
noncomputable def len (a : V) : ℝ := Real.sqrt (dot a a)
/-- solver.rs 609-615. -/
def cross (a b : V) : V := ![a 1 * b 2 - a 2 * b 1, a 2 * b 0 - a 0 * b 2, a 0 * b 1 - a 1 * b 0]

/-! ### Linear systems -/

/-- solver.rs 559-564. -/
noncomputable def pivotOf (a : M) (col : Fin 3) : Fin 3 :=
  ((List.finRange 3).filter (fun r => col < r)).foldl (fun p r => if |a p col| < |a r col| then r else p) col

/-- solver.rs 572-586: the row of the pivot is divided, and subtracted from the others. -/
noncomputable def reduce (col : Fin 3) (a : M) (b : V) : M × V :=
  let div := a col col
  let a2 : M := fun i j => if i = col ∧ col ≤ j then a i j / div else a i j
  let b2 : V := fun i => if i = col then b i / div else b i
  (fun i j => if i ≠ col ∧ col ≤ j then a2 i j - a2 i col * a2 col j else a2 i j,
    fun i => if i ≠ col then b2 i - a2 i col * b2 col else b2 i)

/-- solver.rs 565-586, for one column. -/
noncomputable def elim (col : Fin 3) (s : M × V) : Option (M × V) :=
  let p := pivotOf s.1 col
  if |s.1 p col| < 1 / 10 ^ 30 then none
  else some (reduce col (fun i j => s.1 (Equiv.swap p col i) j) (fun i => s.2 (Equiv.swap p col i)))

/-- solver.rs 557-589: `solve_linear`. -/
noncomputable def solveLinear (a : M) (b : V) : Option V :=
  (((elim 0 (a, b)).bind (elim 1)).bind (elim 2)).map (·.2)

/-! ### Newton's method -/

/-- solver.rs 44-53. -/
structure Config where
  maxIterations : Nat
  stepTolerance : ℝ
  fdStep : ℝ
  residualTolerance : ℝ

/-- solver.rs 68-77: `none` stands for infinity. -/
structure Solution where
  position : V
  iterations : Nat
  step : Option ℝ
  residual : ℝ

/-- solver.rs 81-97. -/
inductive Err
  | ephemeris
  | degenerateFrame
  | didNotConverge (iterations : Nat) (step : Option ℝ) (residual : Option ℝ)
  | singularJacobian

/-- solver.rs 539-555. -/
noncomputable def jacobian (res : V → V) (pos : V) (h : ℝ) : M := fun row axis =>
  (res (Function.update pos axis (pos axis + h)) row - res (Function.update pos axis (pos axis - h)) row) * (1 / (2 * h))

/-- solver.rs 322-331: the part of the step that is taken, `n` halvings being left. -/
noncomputable def lineSearch (res : V → V) (pos delta : V) (norm : ℝ) : Nat → ℝ → V
  | 0, _ => delta
  | n + 1, alpha => if len (res (pos + alpha • delta)) ≤ norm ∨ alpha ≤ 1 / 4096 then alpha • delta else lineSearch res pos delta norm n (alpha * (1 / 2))

/-- solver.rs 279-290. -/
structure St where
  pos : V
  last : Option ℝ
  residual : Option ℝ
  /-- position, residual, iteration and step of the best point -/
  best : Option (V × ℝ × Nat × Option ℝ)

/-- solver.rs 296-301. -/
noncomputable def better (st : St) (r : ℝ) (iter : Nat) : Option (V × ℝ × Nat × Option ℝ) :=
  match st.best with
  | some b => if r < b.2.1 then some (st.pos, r, iter, st.last) else some b
  | none => some (st.pos, r, iter, st.last)

/-- solver.rs 317-321. -/
noncomputable def limited (distance : ℝ) (delta : V) : V :=
  if (1 / 20) * distance < len delta then ((1 / 20) * distance / len delta) • delta else delta

/-- solver.rs 348-369. -/
noncomputable def finish (cfg : Config) (st : St) : Except Err Solution :=
  match st.best with
  | some (p, r, i, s) => if r ≤ 1 / 10 ^ 6 then .ok ⟨p, i, s, r⟩ else .error (.didNotConverge cfg.maxIterations st.last st.residual)
  | none => .error (.didNotConverge cfg.maxIterations st.last st.residual)

/-- solver.rs 292-346; `n` rounds are left. -/
noncomputable def newton (cfg : Config) (res : V → V) (distance : ℝ) : Nat → Nat → St → Except Err Solution
  | 0, _, st => finish cfg st
  | n + 1, iter, st =>
    let r := len (res st.pos)
    let best := better st r iter
    if r ≤ cfg.residualTolerance then .ok ⟨st.pos, iter, st.last, r⟩
    else
      match solveLinear (jacobian res st.pos cfg.fdStep) (-res st.pos) with
      | none => .error .singularJacobian
      | some d =>
        let accepted := lineSearch res st.pos (limited distance d) r 12 1
        let step := len accepted
        if step ≤ cfg.stepTolerance then .ok ⟨st.pos + accepted, iter + 1, some step, r⟩
        else newton cfg res distance n (iter + 1) ⟨st.pos + accepted, some step, some r, best⟩

/-- solver.rs 279-370, from a position. -/
noncomputable def solveFrom (cfg : Config) (res : V → V) (distance : ℝ) (pos : V) : Except Err Solution :=
  newton cfg res distance cfg.maxIterations 0 ⟨pos, none, none, none⟩

/-! ### The rotating frame -/

/-- `GM_SUN`, `GM_EARTH`, `GM_MOON` of the crate `qtty`. -/
structure Mu where
  sun : ℝ
  earth : ℝ
  moon : ℝ

/-- solver.rs 231-235: kilometres; `none` is an error of the ephemeris. -/
structure Sampler where
  sun : ℝ → Option V
  earth : ℝ → Option V
  moonGeo : ℝ → Option V

/-- solver.rs 375-386. -/
structure Frame where
  sun : V
  earth : V
  moon : V
  origin : V
  x : V
  y : V
  z : V
  omega : ℝ
  distance : ℝ
  originAccel : V

/-- mod.rs 56-67. -/
inductive Point
  | L1 | L2 | L3 | L4 | L5
deriving DecidableEq

/-- solver.rs 517-525. -/
noncomputable def pointMass (pos body : V) (mu : ℝ) : V :=
  let r := body - pos
  if 0 < len r then (mu / len r ^ 3) • r else 0

/-- solver.rs 527-537: bodies at the position itself are skipped. -/
noncomputable def gravAccel (pos : V) (bodies : List (V × ℝ)) : V :=
  bodies.foldl (fun acc b => if 0 < len (b.1 - pos) then acc + (b.2 / len (b.1 - pos) ^ 3) • (b.1 - pos) else acc) 0

/-- solver.rs 504-515. -/
noncomputable def externalAccel (k : Mu) (sun earth moon : V) : V :=
  (1 / (k.sun + k.earth)) • (k.sun • pointMass sun moon k.moon + k.earth • pointMass earth moon k.moon)

/-- solver.rs 475-487: days `0.01`, seconds of a day `86400`. -/
noncomputable def relativeVelocity (s : Sampler) (jd : ℝ) : Option V := do
  let e1 ← s.earth (jd - 1 / 100)
  let s1 ← s.sun (jd - 1 / 100)
  let e2 ← s.earth (jd + 1 / 100)
  let s2 ← s.sun (jd + 1 / 100)
  some ((1 / (2 * (1 / 100) * 86400) : ℝ) • ((e2 - s2) - (e1 - s1)))

/-- solver.rs 616-619. -/
noncomputable def normalize (a : V) : Option V := if 0 < len a then some ((1 / len a) • a) else none

/-- solver.rs 393-434, from the sampled positions and the velocity. -/
noncomputable def frameOf (k : Mu) (sun earth moon velocity : V) : Except Err Frame :=
  let rel := earth - sun
  let d := len rel
  if d ≤ 0 then .error .degenerateFrame
  else
    let x := (1 / d) • rel
    let h := cross rel velocity
    let hn := len h
    let z : V := if hn ≤ 0 then ![0, 0, 1] else (1 / hn) • h
    match normalize (cross z x) with
    | none => .error .degenerateFrame
    | some y =>
      let total := k.sun + k.earth
      .ok ⟨sun, earth, moon, (1 / total) • (k.sun • sun + k.earth • earth), x, y, z,
        if 0 < hn then hn / (d * d) else Real.sqrt (total / d ^ 3), d, externalAccel k sun earth moon⟩

/-- solver.rs 389-435: `RotatingFrame::new`. The Sun, the Earth and the Moon come before the test of the distance, the velocity after it. -/
noncomputable def frameNew (k : Mu) (s : Sampler) (jd : ℝ) : Except Err Frame :=
  match s.sun jd, s.earth jd, s.moonGeo jd with
  | some sun, some earth, some moon =>
    if len (earth - sun) ≤ 0 then .error .degenerateFrame
    else
      match relativeVelocity s jd with
      | some v => frameOf k sun earth (earth + moon) v
      | none => .error .ephemeris
  | _, _, _ => .error .ephemeris

/-- solver.rs 437-449. -/
noncomputable def residual (k : Mu) (f : Frame) (pos : V) : V :=
  gravAccel pos [(f.sun, k.sun), (f.earth, k.earth), (f.moon, k.moon)] - f.originAccel -
    cross (f.omega • f.z) (cross (f.omega • f.z) (pos - f.origin))

/-- solver.rs 451-472. -/
noncomputable def seed (k : Mu) (f : Frame) (p : Point) : V :=
  let d := len (f.earth - f.sun)
  let mu := k.earth / (k.sun + k.earth)
  let gamma := (mu / 3) ^ (1 / 3 : ℝ)
  let x : ℝ := match p with
    | .L1 => 1 - gamma
    | .L2 => 1 + gamma
    | .L3 => -1 - 5 * mu / 12
    | .L4 => 1 / 2
    | .L5 => 1 / 2
  let y : ℝ := match p with
    | .L4 => Real.sqrt 3 / 2
    | .L5 => -Real.sqrt 3 / 2
    | _ => 0
  f.origin + (((x - mu) * d) • f.x + (y * d) • f.y)

/-- solver.rs 271-279: `solve_with_sampler`. -/
noncomputable def solve (k : Mu) (s : Sampler) (p : Point) (jd : ℝ) (cfg : Config) (from? : Option V) : Except Err Solution :=
  match frameNew k s jd with
  | .error e => .error e
  | .ok f => solveFrom cfg (residual k f) f.distance (from?.getD (seed k f p))

/-! ### Records -/

/-- `EphemerisError::OutOfRange`. -/
structure OutOfRange where
  jd : ℝ
  start : ℝ
  stop : ℝ

/-- `slice::chunks_exact(n)`, with fuel. -/
def chunksGo (n : Nat) : Nat → List ℝ → List (List ℝ)
  | 0, _ => []
  | fuel + 1, l => if n ≤ l.length then l.take n :: chunksGo n fuel (l.drop n) else []

def chunks (n : Nat) (l : List ℝ) : List (List ℝ) := chunksGo n l.length l

/-- mod.rs 202-210: the position in astronomical units. -/
noncomputable def evalRecord (cheb : List ℝ → ℝ → ℝ) (au : ℝ) (n : Nat) (rec : List ℝ) (seconds : ℝ) : V :=
  let tau := (seconds - rec.getD 0 0) / rec.getD 1 0
  ![cheb ((rec.drop 2).take n) tau / au, cheb ((rec.drop (2 + n)).take n) tau / au, cheb ((rec.drop (2 + 2 * n)).take n) tau / au]

/-- mod.rs 193, 198: the smallest start so far; the infinity before the first record is `none`. -/
noncomputable def lower (first : Option ℝ) (start : ℝ) : ℝ :=
  match first with
  | none => start
  | some f => min f start

/-- mod.rs 194, 199: the largest end so far. -/
noncomputable def upper (last : Option ℝ) (stop : ℝ) : ℝ :=
  match last with
  | none => stop
  | some l => max l stop

/-- mod.rs 195-212; `first` and `last` are `none` for the infinities. -/
noncomputable def scan (cheb : List ℝ → ℝ → ℝ) (au : ℝ) (n : Nat) (seconds : ℝ) : List (List ℝ) → Option ℝ → Option ℝ → Except (Option ℝ × Option ℝ) V
  | [], first, last => .error (first, last)
  | rec :: rest, first, last =>
    let start := rec.getD 0 0 - rec.getD 1 0
    let stop := rec.getD 0 0 + rec.getD 1 0
    let first' := lower first start
    let last' := upper last stop
    if start ≤ seconds ∧ seconds ≤ stop then .ok (evalRecord cheb au n rec seconds) else scan cheb au n seconds rest (some first') (some last')

/-- mod.rs 173-219. An empty scan cannot happen here; its infinities are written as zero. -/
noncomputable def evaluateRecords (cheb : List ℝ → ℝ → ℝ) (au : ℝ) (records : List ℝ) (n : Nat) (jd : ℝ) : Except OutOfRange V :=
  let len := 2 + 3 * n
  if records = [] ∨ n = 0 ∨ len = 2 ∨ records.length % len ≠ 0 then .error ⟨jd, 24150205 / 10, 24880705 / 10⟩
  else
    match scan cheb au n ((jd - 2451545) * 86400) (chunks len records) none none with
    | .ok v => .ok v
    | .error (a, b) => .error ⟨jd, 2451545 + a.getD 0 / 86400, 2451545 + b.getD 0 / 86400⟩

/-! ### Fits -/

/-- fit.rs 46-59. -/
structure FitConfig where
  start : ℝ
  stop : ℝ
  block : ℝ
  validationStep : ℝ
  tolerance : ℝ

/-- fit.rs 98-110. -/
inductive FitErr
  | invalidConfig
  | solver
  | toleranceNotMet (maxError : ℝ)

/-- The crate `cheby`. -/
structure Cheby where
  nodes : Nat → List ℝ
  fit : List ℝ → List ℝ
  eval : List ℝ → ℝ → ℝ

/-- fit.rs 317-319, 321-324. -/
noncomputable def secondsOf (jd : ℝ) : ℝ := (jd - 2451545) * 86400
noncomputable def jdOf (s : ℝ) : ℝ := 2451545 + s / 86400

/-- fit.rs 298-315. -/
noncomputable def validConfig (c : FitConfig) : Bool := decide (secondsOf c.start < secondsOf c.stop ∧ 0 < c.block ∧ 0 < c.validationStep)

/-- fit.rs 222-238: one solution per node. -/
noncomputable def samples (sol : ℝ → Option V) (mid radius : ℝ) : List ℝ → Option (List V)
  | [] => some []
  | node :: ns =>
    match sol (jdOf (mid + radius * node)) with
    | none => none
    | some p => (samples sol mid radius ns).map (p :: ·)

/-- fit.rs 214-248: with fuel for the loop. -/
noncomputable def fitBlocks (ch : Cheby) (sol : ℝ → Option V) (n : Nat) (block stop : ℝ) : Nat → ℝ → Except FitErr (List ℝ)
  | 0, _ => .ok []
  | fuel + 1, start =>
    if start < stop then
      let fin := min (start + block) stop
      let mid := (1 / 2) * (start + fin)
      let radius := (1 / 2) * (fin - start)
      match samples sol mid radius (ch.nodes n) with
      | none => .error .solver
      | some ps =>
        match fitBlocks ch sol n block stop fuel fin with
        | .error e => .error e
        | .ok rest => .ok (mid :: radius :: (ch.fit (ps.map (· 0)) ++ (ch.fit (ps.map (· 1)) ++ (ch.fit (ps.map (· 2)) ++ rest))))
    else .ok []

/-- fit.rs 272-286: the largest error in metres, the sum of squares and the number of samples. -/
noncomputable def validateLoop (ch : Cheby) (au : ℝ) (sol : ℝ → Option V) (records : List ℝ) (n : Nat) (stop step : ℝ) :
    Nat → ℝ → ℝ × ℝ × Nat → Except FitErr (ℝ × ℝ × Nat)
  | 0, _, acc => .ok acc
  | fuel + 1, s, (mx, sq, cnt) =>
    if s ≤ stop + 1 / 10 ^ 9 then
      match sol (jdOf s) with
      | none => .error .solver
      | some truth =>
        match evaluateRecords ch.eval au records n (jdOf s) with
        | .error _ => .error .invalidConfig
        | .ok fit =>
          let err := len (truth - au • fit) * 1000
          validateLoop ch au sol records n stop step fuel (s + step) (max mx err, sq + err * err, cnt + 1)
    else .ok (mx, sq, cnt)

/-- fit.rs 84-94. -/
structure Fitted where
  n : Nat
  records : List ℝ
  maxError : ℝ
  rms : ℝ

/-- fit.rs 202-257, 287-296. -/
noncomputable def fitWithOrder (ch : Cheby) (au : ℝ) (sol : ℝ → Option V) (c : FitConfig) (fuel n : Nat) : Except FitErr Fitted :=
  if validConfig c then
    match fitBlocks ch sol n c.block (secondsOf c.stop) fuel (secondsOf c.start) with
    | .error e => .error e
    | .ok records =>
      match validateLoop ch au sol records n (secondsOf c.stop) c.validationStep fuel (secondsOf c.start) (0, 0, 0) with
      | .error e => .error e
      | .ok (mx, sq, cnt) => .ok ⟨n, records, mx, if cnt = 0 then 0 else Real.sqrt (sq / cnt)⟩
  else .error .invalidConfig

/-- fit.rs 157-175, over the orders that are left; `best` is the error of the last fit. -/
noncomputable def fitOrders (fit : Nat → Except FitErr Fitted) (tolerance : ℝ) : List Nat → Option ℝ → Except FitErr Fitted
  | [], best => .error (.toleranceNotMet (best.getD 0))
  | n :: ns, _ =>
    match fit n with
    | .error e => .error e
    | .ok f => if f.maxError ≤ tolerance then .ok f else fitOrders fit tolerance ns (some f.maxError)

/-- fit.rs 151-176. -/
noncomputable def fitLagrange (ch : Cheby) (au : ℝ) (sol : ℝ → Option V) (c : FitConfig) (fuel : Nat) : Except FitErr Fitted :=
  fitOrders (fitWithOrder ch au sol c fuel) c.tolerance [16, 24, 32, 40, 48] none

end Verif.Lagrange
