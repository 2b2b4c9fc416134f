import Mathlib.Algebra.Module.Defs
import Mathlib.Algebra.Module.LinearMap.Defs
import Mathlib.Algebra.Order.Field.Basic

/-
Model of `/repo/src/formats/spice/kernel.rs` (`SpkKernel`), `/repo/src/formats/spice/spk_kernel.rs`
(`SpkKernelSet`), `/repo/src/spice/kernel_set.rs` (`state_naif`) and
`/repo/src/ephemeris/jpl/bodies.rs`, `/repo/src/ephemeris/runtime_backend.rs`.

Epochs are elements of a linear order `T`, states elements of an additive group `V` (six or three
coordinates, exact arithmetic). Evaluation of one segment is a function of the epoch (modelled in
`Verif.Interp`). Error payloads are dropped. `HashMap`s are association lists; only lookups are used,
so their order does not matter. Loops carry fuel; an outer `none` means not finished.
-/
namespace Verif.Spk

inductive Err where
  | noChain | outOfCoverage | unsupported | other | panic
deriving DecidableEq, Repr

variable {T V : Type}

/-! ### kernel.rs -/

/-- kernel.rs 31-47. `eval` is `segment.evaluate`, absent for unsupported data types. -/
structure Seg (T V : Type) where
  target : Int
  center : Int
  start : T
  stop : T
  eval : Option (T → Except Err V)

/-- kernel.rs 251, 265: not `epoch < start || epoch > end`. -/
def covers [LinearOrder T] (e : T) (s : Seg T V) : Bool := !(decide (e < s.start) || decide (s.stop < e))

/-- kernel.rs 235, 307: the visited table, latest insertion first: node, predecessor, edge label
(`none` for the start node, whose entry is `(target, usize::MAX, true)`). -/
abbrev Visited (L : Type) := List (Int × Int × Option L)

/-- Is the node in the table? -/
def seen {L : Type} (vis : Visited L) (n : Int) : Bool := vis.any (fun x => x.1 == n)

/-- kernel.rs 254-257, 268-271, 323-327: visit the end `e.2` of an edge unless already visited. -/
def visit {L : Type} (node : Int) (st : Visited L × List Int) (e : L × Int) : Visited L × List Int :=
  if seen st.1 e.2 then st else ((e.2, node, some e.1) :: st.1, st.2 ++ [e.2])

/-- kernel.rs 242-273, 311-329: the search loop. `edges node` are the edges in the order tried. -/
def bfs {L : Type} (edges : Int → List (L × Int)) (goal : Int) :
    Nat → Visited L → List Int → Option (Bool × Visited L)
  | 0, _, _ => none
  | _ + 1, vis, [] => some (false, vis)
  | n + 1, vis, node :: queue =>
    if node = goal then some (true, vis)
    else
      let st := (edges node).foldl (visit node) (vis, queue)
      bfs edges goal n st.1 st.2

/-- kernel.rs 247-272: edges of `node`: segments with this target in file order (`by_target`), then
segments with this center; `true` is a forward edge. Only segments that cover the epoch. -/
def edgesAt [LinearOrder T] (segs : List (Seg T V)) (e : T) (node : Int) : List ((Nat × Bool) × Int) :=
  (segs.zipIdx.filterMap (fun (s, i) =>
    if s.target = node ∧ covers e s then some ((i, true), s.center) else none)) ++
  (segs.zipIdx.filterMap (fun (s, i) =>
    if s.center = node ∧ covers e s then some ((i, false), s.target) else none))

/-- kernel.rs 315-322: edges of `node` whatever the epoch. -/
def edgesAny (segs : List (Seg T V)) (node : Int) : List (Unit × Int) :=
  segs.filterMap (fun s =>
    if s.target = node then some ((), s.center)
    else if s.center = node then some ((), s.target) else none)

/-- kernel.rs 294-303: walk back from `node` to `target`; steps latest first. `none` inside is the
`expect`. -/
def walkBack {L : Type} (vis : Visited L) (target : Int) : Nat → Int → Option (Option (List L))
  | 0, _ => none
  | n + 1, node =>
    if node = target then some (some [])
    else
      match vis.find? (fun x => x.1 == node) with
      | some (_, pred, some l) =>
        match walkBack vis target n pred with
        | some (some ls) => some (some (ls ++ [l]))
        | r => r
      | _ => some none

/-- Fuel that the loops need at most: every node is an end of a segment or the target. -/
def fuelFor (segs : List (Seg T V)) : Nat := 2 * segs.length + 2

/-- kernel.rs 306-331. -/
def hasChainAny (segs : List (Seg T V)) (target center : Int) : Option Bool :=
  (bfs (edgesAny segs) center (fuelFor segs) [(target, target, none)] [target]).map (·.1)

/-- kernel.rs 226-304. -/
def findChain [LinearOrder T] (segs : List (Seg T V)) (target center : Int) (e : T) :
    Option (Except Err (List (Nat × Bool))) :=
  match bfs (edgesAt segs e) center (fuelFor segs) [(target, target, none)] [target] with
  | none => none
  | some (false, _) =>
    (hasChainAny segs target center).map (fun any => .error (if any then .outOfCoverage else .noChain))
  | some (true, vis) =>
    (walkBack vis target (vis.length + 1) center).map (fun r =>
      match r with
      | some ls => .ok ls
      | none => .error .panic)

/-- kernel.rs 183-218: sum along the path. -/
def sumPath [AddCommGroup V] (segs : List (Seg T V)) (e : T) : List (Nat × Bool) → V → Except Err V
  | [], acc => .ok acc
  | (i, forward) :: rest, acc =>
    match segs[i]? with
    | none => .error .panic
    | some s =>
      match s.eval with
      | none => .error .unsupported
      | some f =>
        match f e with
        | .error x => .error x
        | .ok x => sumPath segs e rest (if forward then acc + x else acc - x)

/-- kernel.rs 166-222. -/
def state [LinearOrder T] [AddCommGroup V] (segs : List (Seg T V)) (target center : Int) (e : T) :
    Option (Except Err V) :=
  if target = center then some (.ok 0)
  else
    match findChain segs target center e with
    | none => none
    | some (.error x) => some (.error x)
    | some (.ok path) => some (sumPath segs e path 0)

/-! ### kernel_set.rs -/

/-- kernel_set.rs 124-131: kernels from the last loaded to the first. -/
def stateLoop [LinearOrder T] [AddCommGroup V] (target center : Int) (e : T) :
    List (List (Seg T V)) → Option (Except Err V)
  | [] => some (.error .noChain)
  | k :: rest =>
    match state k target center e with
    | none => none
    | some (.ok v) => some (.ok v)
    | some (.error x) =>
      if x = .noChain ∨ x = .outOfCoverage then stateLoop target center e rest else some (.error x)

/-- kernel_set.rs 118-132. -/
def stateNaif [LinearOrder T] [AddCommGroup V] (kernels : List (List (Seg T V))) (target center : Int)
    (e : T) : Option (Except Err V) :=
  stateLoop target center e kernels.reverse

/-! ### spk_kernel.rs -/

inductive KErr where
  | missing | cycle | outOfRange | other
deriving DecidableEq, Repr

/-- spk_kernel.rs 74-80. `pos` is `descriptor.try_position_et`. -/
structure KSeg (T V : Type) where
  target : Int
  center : Int
  start : T
  stop : T
  pos : T → Except KErr V

/-- spk_kernel.rs 98-100. -/
def coversEt [LinearOrder T] (e : T) (s : KSeg T V) : Bool := decide (s.start ≤ e) && decide (e ≤ s.stop)

/-- Result of a loop over candidate segments: an answer, or none found with the first error kept. -/
inductive Scan (V : Type) where
  | done (r : Except KErr V)
  | next (first : Option KErr)

/-- `first.get_or_insert(x)`. -/
def keepFirst (first : Option KErr) (x : KErr) : Option KErr := some (first.getD x)

/-- spk_kernel.rs 300-317: the loop of `try_edge_position_et`. -/
def edgeLoop [LinearOrder T] (e : T) : List (KSeg T V) → Option KErr → Except KErr V
  | [], first => .error (first.getD .missing)
  | s :: rest, first =>
    if !coversEt e s then edgeLoop e rest (keepFirst first .outOfRange)
    else
      match s.pos e with
      | .ok p => .ok p
      | .error x =>
        if x = .outOfRange then edgeLoop e rest (keepFirst first .outOfRange) else .error x

/-- spk_kernel.rs 293-319. -/
def edgePosition [LinearOrder T] (segs : List (KSeg T V)) (target center : Int) (e : T) :
    Except KErr V :=
  edgeLoop e (segs.reverse.filter (fun s => s.target = target ∧ s.center = center)) none

/-- spk_kernel.rs 233-261: the loop of `try_position_from_ssb`; `rec` resolves a center. -/
def ssbLoop [LinearOrder T] [AddCommGroup V] (e : T) (rec : Int → Option (Except KErr V)) :
    List (KSeg T V) → Option KErr → Option (Scan V)
  | [], first => some (.next first)
  | s :: rest, first =>
    if !coversEt e s then ssbLoop e rec rest (keepFirst first .outOfRange)
    else
      match s.pos e with
      | .ok off =>
        match rec s.center with
        | none => none
        | some (.ok c) => some (.done (.ok (c + off)))
        | some (.error x) => ssbLoop e rec rest (keepFirst first x)
      | .error x =>
        if x = .outOfRange then ssbLoop e rec rest (keepFirst first .outOfRange)
        else some (.done (.error x))

/-- spk_kernel.rs 20. -/
def earthMoonRatio (K : Type) [Field K] : K := 8130056907419062 / 10 ^ 14

/-- spk_kernel.rs 218-282. `visited` is pushed before and popped after, on every path, so it is passed
down only. -/
def fromSsb (K : Type) [Field K] [LinearOrder T] [AddCommGroup V] [Module K V] (segs : List (KSeg T V))
    (e : T) : Nat → Int → List Int → Option (Except KErr V)
  | 0, _, _ => none
  | n + 1, target, visited =>
    if target = 0 then some (.ok 0)
    else if target ∈ visited then some (.error .cycle)
    else
      let visited := visited ++ [target]
      match ssbLoop e (fun c => fromSsb K segs e n c visited)
          (segs.reverse.filter (fun s => s.target = target)) none with
      | none => none
      | some (.done r) => some r
      | some (.next first) =>
        let fail : Except KErr V := .error (first.getD .missing)
        if target = 399 then
          match fromSsb K segs e n 3 visited with
          | none => none
          | some (.error _) => some fail
          | some (.ok emb) =>
            match edgePosition segs 301 3 e with
            | .ok moonOff => some (.ok (emb - (1 / earthMoonRatio K) • moonOff))
            | .error _ => some fail
        else some fail

/-- Fuel that the resolution needs at most. -/
def ssbFuel (segs : List (KSeg T V)) : Nat := segs.length + 4

/-- spk_kernel.rs 171-180. -/
def geometric (K : Type) [Field K] [LinearOrder T] [AddCommGroup V] [Module K V] (segs : List (KSeg T V))
    (target observer : Int) (e : T) : Option (Except KErr V) :=
  match fromSsb K segs e (ssbFuel segs) target [] with
  | none => none
  | some (.error x) => some (.error x)
  | some (.ok t) =>
    match fromSsb K segs e (ssbFuel segs) observer [] with
    | none => none
    | some (.error x) => some (.error x)
    | some (.ok o) => some (.ok (t - o))

/-- spk_kernel.rs 199-216. -/
def baryFast (K : Type) [Field K] [LinearOrder T] [AddCommGroup V] [Module K V] (segs : List (KSeg T V))
    (planet : Int) (e : T) : Except KErr V := do
  let target ← edgePosition segs planet 0 e
  let emb ← edgePosition segs 3 0 e
  let earth ← match edgePosition segs 399 3 e with
    | .ok off => Except.ok (emb + off)
    | .error _ => do
      let moon ← edgePosition segs 301 3 e
      .ok (emb - (1 / earthMoonRatio K) • moon)
  .ok (target - earth)

/-- spk_kernel.rs 183-197; `id` is the NAIF id of the requested point, `barycenter` whether it is the
system barycenter. -/
def planetGeocentric (K : Type) [Field K] [LinearOrder T] [AddCommGroup V] [Module K V]
    (segs : List (KSeg T V)) (id : Int) (barycenter : Bool) (e : T) : Option (Except KErr V) :=
  if barycenter then
    match baryFast K segs id e with
    | .ok v => some (.ok v)
    | .error x => if x = .missing then geometric K segs id 399 e else some (.error x)
  else geometric K segs id 399 e

/-! ### bodies.rs, runtime_backend.rs -/

section bodies
variable {K : Type} [Field K] [AddCommGroup V] [Module K V]

/-- bodies.rs 71-83; `r` is `EARTH_MOON_RATIO` of the archive. -/
def fracEarth (r : K) : K := r / (r + 1)
def fracMoon (r : K) : K := 1 / (r + 1)
def earthOffset (r : K) : K := 1 / r
def moonGeo (r : K) : K := 1 / fracEarth r

/-- runtime_backend.rs 27-32, at one epoch: positions (or velocities) that the stacks return. -/
structure Stacks (V : Type) where
  sun : Except KErr V
  emb : Except KErr V
  moon : Except KErr V
  earth : Option (Except KErr V)

/-- bodies.rs 93-107. `out` is frame change and unit conversion. -/
def sunBary (out : V →ₗ[K] V) (s : Stacks V) : Except KErr V := do
  let sun ← s.sun
  .ok (out sun)

/-- bodies.rs 120-157, runtime_backend.rs 179-187. -/
def earthBary (r : K) (out : V →ₗ[K] V) (s : Stacks V) : Except KErr V :=
  match s.earth with
  | some earth => do
    let emb ← s.emb
    let off ← earth
    .ok (out (emb + off))
  | none => do
    let emb ← s.emb
    let moon ← s.moon
    .ok (out (emb - earthOffset r • moon))

/-- bodies.rs 172-213, runtime_backend.rs 202-215. -/
def earthHelio (r : K) (out : V →ₗ[K] V) (s : Stacks V) : Except KErr V :=
  match s.earth with
  | some earth => do
    let emb ← s.emb
    let off ← earth
    let sun ← s.sun
    .ok (out (emb + off - sun))
  | none => do
    let emb ← s.emb
    let moon ← s.moon
    let sun ← s.sun
    .ok (out (emb - earthOffset r • moon - sun))

/-- bodies.rs 271-303, runtime_backend.rs 255-263. -/
def moonGeocentric (r : K) (out : V →ₗ[K] V) (s : Stacks V) : Except KErr V :=
  match s.earth with
  | some earth => do
    let moon ← s.moon
    let off ← earth
    .ok (out (moon - off))
  | none => do
    let moon ← s.moon
    .ok (out (moonGeo r • moon))

/-- bodies.rs 229-256, runtime_backend.rs 235-243: `s` holds velocities. -/
def earthBaryVelocity (r : K) (out : V →ₗ[K] V) (s : Stacks V) : Except KErr V := earthBary r out s

end bodies

end Verif.Spk
