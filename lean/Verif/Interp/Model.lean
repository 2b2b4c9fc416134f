import Mathlib.Algebra.Order.Field.Basic
import Mathlib.Algebra.Order.Floor.Ring
import Verif.Text.Model

/-
Model of segment evaluation: `/repo/src/formats/spice/segment.rs` (137-328, 590-673) and
`/repo/src/ephemeris/jpl/eval.rs` (105-247, 258-542).

Numbers are elements of an ordered field: exact arithmetic, finite values (the branches for
non-finite epochs are not modelled). Error payloads are dropped. The external crate `cheby` enters
as the functions `ev` (`evaluate`) and `evD` (`evaluate_derivative`); `evaluate_both` is the pair.
-/
namespace Verif.Interp
open Verif.Text

inductive Err where
  | outOfCoverage | corrupted | parse | invalidSegment
deriving DecidableEq, Repr

variable {K : Type} [Field K] [LinearOrder K]

/-- `&v[a..b]`. -/
def sliceL (v : List K) (a b : Nat) : Option (List K) :=
  if a ≤ b ∧ b ≤ v.length then some ((v.drop a).take (b - a)) else none

/-! ### segment.rs, Chebyshev -/

/-- segment.rs 118-133 (`components` is implied by the evaluator). -/
structure Cheb (K : Type) where
  init : K
  intlen : K
  rsize : Nat
  ncoeff : Nat
  nRecords : Nat
  records : List K

/-- segment.rs 160-168: midpoint and radius of record `idx`. -/
def recordHead (c : Cheb K) (idx : Nat) : Res Err (Nat × K × K) :=
  let off := idx * c.rsize
  match c.records[off]?, c.records[off + 1]? with
  | some mid, some radius => if radius ≤ 0 then .err .corrupted else .ok (idx, mid, radius)
  | _, _ => .panic

/-- segment.rs 137-169. With no records the index is -1 and the subscript panics. -/
def locate [FloorRing K] (c : Cheb K) (et : K) : Res Err (Nat × K × K) :=
  let stop := c.init + c.intlen * c.nRecords
  if et < c.init ∨ stop < et then .err .outOfCoverage
  else
    let i0 := ⌊(et - c.init) / c.intlen⌋
    let i1 := if i0 < 0 then 0 else i0
    let idx := if i1.toNat ≥ c.nRecords then (c.nRecords : Int) - 1 else i1
    if idx < 0 then .panic else recordHead c idx.toNat

/-- The coefficients of component `i` of a record starting at `off`: `off + i n .. off + (i + 1) n`. -/
def coeffs (c : Cheb K) (off i : Nat) : Res Err (List K) :=
  .orPanic (sliceL c.records (off + i * c.ncoeff) (off + (i + 1) * c.ncoeff))

/-- segment.rs 172-186: position and velocity, components in order. -/
def evalType2 [FloorRing K] (ev evD : List K → K → K) (c : Cheb K) (et : K) : Res Err (List K) := do
  let (idx, mid, radius) ← locate c et
  let off := idx * c.rsize + 2
  let tau := (et - mid) / radius
  let c0 ← coeffs c off 0
  let c1 ← coeffs c off 1
  let c2 ← coeffs c off 2
  .ok [ev c0 tau, ev c1 tau, ev c2 tau, evD c0 tau / radius, evD c1 tau / radius, evD c2 tau / radius]

/-- segment.rs 189-201. -/
def evalType3 [FloorRing K] (ev : List K → K → K) (c : Cheb K) (et : K) : Res Err (List K) := do
  let (idx, mid, radius) ← locate c et
  let off := idx * c.rsize + 2
  let tau := (et - mid) / radius
  let c0 ← coeffs c off 0
  let c1 ← coeffs c off 1
  let c2 ← coeffs c off 2
  let c3 ← coeffs c off 3
  let c4 ← coeffs c off 4
  let c5 ← coeffs c off 5
  .ok [ev c0 tau, ev c1 tau, ev c2 tau, ev c3 tau, ev c4 tau, ev c5 tau]

/-! ### segment.rs, discrete states -/

/-- segment.rs 206-219. -/
structure Discrete (K : Type) where
  size : Nat
  nRecords : Nat
  states : List K
  epochs : List K

inductive Window where
  | exact (i : Nat)
  | window (first count : Nat)
deriving DecidableEq, Repr

/-- `slice::binary_search_by` on a strictly increasing table: the index of an equal element, or the
insertion point. -/
def binarySearch (l : List K) (x : K) : Nat ⊕ Nat :=
  if x ∈ l then .inl (l.idxOf x) else .inr (l.countP (· < x))

/-- segment.rs 245-284. An empty table is out of coverage. -/
def locateOrWindow (d : Discrete K) (et : K) (count : Nat) : Res Err Window :=
  match d.epochs.head?, d.epochs.getLast? with
  | some start, some stop =>
    if d.nRecords = 0 ∨ et < start ∨ stop < et then .err .outOfCoverage
    else
      match binarySearch d.epochs et with
      | .inl i => .ok (.exact i)
      | .inr ins =>
        if count = 0 ∨ count > d.nRecords then .err .parse
        else
          let left := count / 2
          let first := ins - left
          let first := if first + count > d.nRecords then d.nRecords - count else first
          .ok (.window first count)
  | _, _ => .err .outOfCoverage

/-- segment.rs 232-243. -/
def stateRecord (d : Discrete K) (i : Nat) : Res Err (List K) :=
  match sliceL d.states (i * 6) (i * 6 + 6) with
  | some s => .ok s
  | none => .err .parse

/-- segment.rs 599-609: the basis polynomial of node `i`; `none` is the duplicate-epoch error. -/
def basis (eps : K) (xs : List K) (x : K) (i : Nat) : Option K :=
  (List.range xs.length).foldl (fun b j =>
    if i = j then b
    else
      let denom := xs.getD i 0 - xs.getD j 0
      if |denom| ≤ eps then none else b.map (· * ((x - xs.getD j 0) / denom))) (some 1)

/-- segment.rs 611: `value += ys[i] * basis`. -/
def addTerm (v b : Option K) (y : K) : Option K :=
  match v, b with
  | some v, some b => some (v + y * b)
  | _, _ => none

/-- segment.rs 590-614. `eps` is `f64::EPSILON`. -/
def lagrangeValue (eps : K) (xs ys : List K) (x : K) : Res Err K :=
  if xs.length ≠ ys.length ∨ xs = [] then .err .parse
  else
    match (List.range xs.length).foldl (fun v i => addTerm v (basis eps xs x i) (ys.getD i 0))
        (some 0) with
    | some v => .ok v
    | none => .err .corrupted

/-- segment.rs 634-635: `z[2i] = z[2i+1] = xs[i]`. -/
def node (xs : List K) (i : Nat) : K := xs.getD (i / 2) 0

/-- segment.rs 631-662: the final value of cell `table[i][j]`. Each cell is written once, before it
is read, so the mutable table is this function. -/
def cell (xs ys ds : List K) : Nat → Nat → K
  | i, 0 => ys.getD (i / 2) 0
  | i, 1 =>
    if i % 2 = 1 ∨ i = 0 then ds.getD (i / 2) 0
    else (ys.getD (i / 2) 0 - ys.getD ((i - 1) / 2) 0) / (node xs i - node xs (i - 1))
  | i, j + 2 =>
    (cell xs ys ds i (j + 1) - cell xs ys ds (i - 1) (j + 1)) / (node xs i - node xs (i - (j + 2)))

/-- segment.rs 642-647, 653-659: some denominator is too small. -/
def hermiteClash (eps : K) (xs : List K) : Bool :=
  (List.range xs.length).any (fun i =>
    i ≠ 0 && decide (|node xs (2 * i) - node xs (2 * i - 1)| ≤ eps)) ||
  (List.range (2 * xs.length)).any (fun i =>
    (List.range (i + 1)).any (fun j => 2 ≤ j && decide (|node xs i - node xs (i - j)| ≤ eps)))

/-- segment.rs 665-671: the evaluation loop, `i` counting down from `k - 1`. -/
def hermiteHorner (xs : List K) (coef : Nat → K) (x : K) : Nat → K → K → K × K
  | 0, value, derivative => (value, derivative)
  | k + 1, value, derivative =>
    hermiteHorner xs coef x k (value * (x - node xs k) + coef k) (derivative * (x - node xs k) + value)

/-- segment.rs 616-673. -/
def hermite (eps : K) (xs ys ds : List K) (x : K) : Res Err (K × K) :=
  if xs.length ≠ ys.length ∨ xs.length ≠ ds.length ∨ xs = [] then .err .parse
  else if hermiteClash eps xs then .err .corrupted
  else
    let order := 2 * xs.length
    let coef := fun i => cell xs ys ds i i
    .ok (hermiteHorner xs coef x (order - 1) (coef (order - 1)) 0)

/-- `states[idx * 6 + component]` for `idx` in `first .. first + count`. -/
def column (d : Discrete K) (first count component : Nat) : Res Err (List K) :=
  .orPanic ((List.range count).mapM (fun k => d.states[(first + k) * 6 + component]?))

/-- segment.rs 286-303. -/
def evalLagrange (eps : K) (d : Discrete K) (et : K) : Res Err (List K) := do
  match ← locateOrWindow d et (d.size + 1) with
  | .exact i => stateRecord d i
  | .window first count =>
    let epochs ← Res.orPanic (sliceL d.epochs first (first + count))
    (List.range 6).mapM (fun component => do
      let values ← column d first count component
      lagrangeValue eps epochs values et)

/-- segment.rs 312-322: one axis. -/
def hermiteAxis (eps : K) (d : Discrete K) (first count : Nat) (epochs : List K) (et : K) (axis : Nat) :
    Res Err (K × K) := do
  let p ← column d first count axis
  let v ← column d first count (axis + 3)
  hermite eps epochs p v et

/-- segment.rs 305-327: positions of the three axes, then velocities. -/
def evalHermite (eps : K) (d : Discrete K) (et : K) : Res Err (List K) := do
  match ← locateOrWindow d et d.size with
  | .exact i => stateRecord d i
  | .window first count =>
    let epochs ← Res.orPanic (sliceL d.epochs first (first + count))
    let x ← hermiteAxis eps d first count epochs et 0
    let y ← hermiteAxis eps d first count epochs et 1
    let z ← hermiteAxis eps d first count epochs et 2
    .ok [x.1, y.1, z.1, x.2, y.2, z.2]

/-! ### eval.rs -/

/-- eval.rs 258-275. -/
structure Dyn (K : Type) where
  dataType : Int
  init : K
  intlen : K
  ncoeff : Nat
  rsize : Nat
  nRecords : Nat
  data : List K

/-- eval.rs 136-170: the record index. -/
def locateParams [FloorRing K] (init intlen : K) (n : Nat) (et : K) : Res Err Nat :=
  if n = 0 ∨ intlen ≤ 0 then .err .invalidSegment
  else
    let stop := init + intlen * n
    if et < init ∨ stop < et then .err .outOfCoverage
    else
      let rel := (et - init) / intlen
      .ok (if rel ≥ n then n - 1 else ⌊rel⌋.toNat)

/-- eval.rs 174-179, 292-316: `try_locate_et`: the record, tau and radius. -/
def tryLocate [FloorRing K] (s : Dyn K) (et : K) : Res Err (List K × K × K) := do
  let idx ← locateParams s.init s.intlen s.nRecords et
  let record ← Res.orPanic (sliceL s.data (idx * s.rsize) (idx * s.rsize + s.rsize))
  let mid ← Res.orPanic record[0]?
  let radius ← Res.orPanic record[1]?
  .ok (record, (et - mid) / radius, radius)

/-- eval.rs 105-111, 113-121: coefficient block `i` of a record. -/
def block (record : List K) (n i : Nat) : Res Err (List K) :=
  .orPanic (sliceL record (2 + i * n) (2 + (i + 1) * n))

/-- eval.rs 183-190, 330-341: `try_position_et`. -/
def tryPosition [FloorRing K] (ev : List K → K → K) (s : Dyn K) (et : K) : Res Err (List K) := do
  let (record, tau, _) ← tryLocate s et
  let cx ← block record s.ncoeff 0
  let cy ← block record s.ncoeff 1
  let cz ← block record s.ncoeff 2
  .ok [ev cx tau, ev cy tau, ev cz tau]

/-- eval.rs 193-218, 366-378: `try_velocity_et`, km per day. -/
def tryVelocity [FloorRing K] (ev evD : List K → K → K) (s : Dyn K) (et : K) : Res Err (List K) := do
  let (record, tau, radius) ← tryLocate s et
  if s.dataType = 3 then do
    let cx ← block record s.ncoeff 3
    let cy ← block record s.ncoeff 4
    let cz ← block record s.ncoeff 5
    .ok [ev cx tau * 86400, ev cy tau * 86400, ev cz tau * 86400]
  else do
    let cx ← block record s.ncoeff 0
    let cy ← block record s.ncoeff 1
    let cz ← block record s.ncoeff 2
    let scale := 86400 / radius
    .ok [evD cx tau * scale, evD cy tau * scale, evD cz tau * scale]

/-- eval.rs 426-431. -/
structure Stacked (K : Type) where
  startEt : K
  endEt : K
  desc : Dyn K

/-- eval.rs 498-518: the loop over the segments in reverse order; `seen` is whether an out-of-range
error has been recorded. -/
def selectLoop [FloorRing K] (et : K) : List (Stacked K) → Bool → Res Err (Dyn K)
  | [], seen => .err (if seen then .outOfCoverage else .invalidSegment)
  | s :: rest, seen =>
    if ¬ (s.startEt ≤ et ∧ et ≤ s.endEt) then selectLoop et rest true
    else
      match tryLocate s.desc et with
      | .ok _ => .ok s.desc
      | .err .outOfCoverage => selectLoop et rest true
      | .err e => .err e
      | .panic => .panic

/-- eval.rs 498. -/
def selectEt [FloorRing K] (segs : List (Stacked K)) (et : K) : Res Err (Dyn K) :=
  selectLoop et segs.reverse false

end Verif.Interp
