import Mathlib.Algebra.Order.Field.Basic
import Mathlib.Order.MinMax

/-
Model of `/repo/src/event/search/root_finding.rs` (bisection, Brent) and of
`/repo/src/event/search/extrema.rs` (golden section, classification, extrema scan).

Times and values are elements of one linearly ordered field `F` (Rust: `f64` in typed wrappers);
rounding and NaN are not modelled. `sg` stands for `f64::signum`: the theorems only use its value
on non-zero numbers, so that `+0.0 ↦ 1`, `-0.0 ↦ -1` and `0 ↦ 0` are all covered. `for` loops with
a constant bound are structural recursions on the remaining iterations; `while`/`loop` carry fuel,
`none` meaning that the loop has not finished.
-/
namespace Verif.RootFinding

variable {F : Type} [Field F] [LinearOrder F]

/-- root_finding.rs 46. -/
def defaultTol : F := 1 / 10 ^ 9

/-- root_finding.rs 49. -/
def brentMaxIter : Nat := 100

/-- root_finding.rs 52. -/
def bisectMaxIter : Nat := 80

/-- root_finding.rs 55. -/
def fEps : F := 1 / 10 ^ 12

/-- root_finding.rs 59. -/
def coincidenceEps : F := 1 / 10 ^ 14

/-- root_finding.rs 66-70. -/
def sameSign (sg : F → Int) (a b : F) : Bool := sg a == sg b && sg a != 0

/-- root_finding.rs 324-341: the loop and the final `Some(a.mean(b))`. -/
def bisectLoop (sg : F → Int) (f : F → F) (tol : F) : Nat → (a b fa : F) → F
  | 0, a, b, _ => (a + b) / 2
  | n + 1, a, b, fa =>
    let mid := (a + b) / 2
    let fm := f mid
    let width := |b - a|
    if |fm| < fEps ∨ width < tol then mid
    else if sameSign sg fa fm then bisectLoop sg f tol n mid b fm
    else bisectLoop sg f tol n a mid fa

/-- root_finding.rs 300-342. -/
def bisection (sg : F → Int) (lo hi : F) (f : F → F) : Option F :=
  let fa := f lo
  let fb := f hi
  if |fa| < fEps then some lo
  else if |fb| < fEps then some hi
  else if sameSign sg fa fb then none
  else some (bisectLoop sg f defaultTol bisectMaxIter lo hi fa)

/-- The mutable variables of `brent_engine` (191-214). -/
structure BrentState (F : Type) where
  a : F
  b : F
  c : F
  d : F
  e : F
  fa : F
  fb : F
  fc : F

/-- root_finding.rs 229-241: numerator and denominator of the interpolation step. -/
def interpolate (s : BrentState F) (m : F) : F × F :=
  let r0 := s.fb / s.fa
  if |s.a - s.c| < coincidenceEps then (m * (2 * r0), 1 - r0)
  else
    let qv := s.fa / s.fc
    let r := s.fb / s.fc
    (m * (2 * r0 * qv * (qv - r)) - (s.b - s.a) * (r0 * (r - 1)),
     (qv - 1) * (r - 1) * (r0 - 1))

/-- root_finding.rs 243-255: sign normalisation and acceptance test; returns `(new_e, new_d)`. -/
def acceptStep (tol m e d p q : F) : F × F :=
  let pq : F × F := if p > 0 then (p, -q) else (-p, q)
  if pq.1 * 2 < m * (3 * pq.2) - |tol * pq.2| ∧ pq.1 < |e * ((1 / 2) * pq.2)| then
    (d, pq.1 / pq.2)
  else (m, m)

/-- root_finding.rs 223-256. -/
def chooseStep (tol : F) (s : BrentState F) (m : F) : F × F :=
  if |s.e| < tol ∨ |s.fa| ≤ |s.fb| then (m, m)
  else acceptStep tol m s.e s.d (interpolate s m).1 (interpolate s m).2

/-- root_finding.rs 264-270: the displacement added to `b`. -/
def displacement (tol m d : F) : F :=
  if |d| > tol then d else if m > 0 then tol else -tol

/-- root_finding.rs 258-287: one iteration after the stopping test. -/
def brentStep (sg : F → Int) (f : F → F) (tol m : F) (s : BrentState F) : BrentState F :=
  let ed := chooseStep tol s m
  let e := ed.1
  let d := ed.2
  let a := s.b
  let fa := s.fb
  let b := s.b + displacement tol m d
  let fb := f b
  let s1 : BrentState F :=
    if sameSign sg fb s.fc then
      { a := a, b := b, c := a, d := b - a, e := b - a, fa := fa, fb := fb, fc := fa }
    else { a := a, b := b, c := s.c, d := d, e := e, fa := fa, fb := fb, fc := s.fc }
  if |s1.fc| < |s1.fb| then
    { a := s1.b, b := s1.c, c := s1.b, d := s1.d, e := s1.e,
      fa := s1.fb, fb := s1.fc, fc := s1.fb }
  else s1

/-- root_finding.rs 216-290; the whole final state is returned (the code returns `b`). -/
def brentLoop (sg : F → Int) (f : F → F) (tol : F) : Nat → BrentState F → BrentState F
  | 0, s => s
  | n + 1, s =>
    let m := (s.c - s.b) * (1 / 2)
    if |s.fb| < fEps ∨ |m| ≤ tol then s
    else brentLoop sg f tol n (brentStep sg f tol m s)

/-- root_finding.rs 206-214: the initial state (swapped when `|fa| < |fb|`). -/
def brentInit (lo hi flo fhi : F) : BrentState F :=
  if |flo| < |fhi| then
    { a := hi, b := lo, c := hi, d := lo - hi, e := lo - hi, fa := fhi, fb := flo, fc := fhi }
  else { a := lo, b := hi, c := lo, d := hi - lo, e := hi - lo, fa := flo, fb := fhi, fc := flo }

/-- root_finding.rs 175-291. -/
def brentEngine (sg : F → Int) (lo hi flo fhi : F) (f : F → F) (tol : F) : Option F :=
  if |flo| < fEps then some lo
  else if |fhi| < fEps then some hi
  else if sameSign sg flo fhi then none
  else some (brentLoop sg f tol brentMaxIter (brentInit lo hi flo fhi)).b

/-- root_finding.rs 89-98. -/
def brent (sg : F → Int) (lo hi : F) (f : F → F) : Option F :=
  brentEngine sg lo hi (f lo) (f hi) f defaultTol

/-- root_finding.rs 142-169: the same solver on offsets from the start of the period. -/
def brentCore (sg : F → Int) (start stop flo fhi : F) (f : F → F) (tol : F) : Option F :=
  (brentEngine sg 0 (stop - start) flo fhi (fun off => f (start + off)) tol).map (start + ·)

/-- root_finding.rs 105-117. -/
def brentWithValues (sg : F → Int) (start stop flo fhi : F) (f : F → F) : Option F :=
  brentCore sg start stop flo fhi f defaultTol

/-- root_finding.rs 123-136. -/
def brentTol (sg : F → Int) (start stop flo fhi : F) (f : F → F) (tol : F) : Option F :=
  brentCore sg start stop flo fhi f tol

/-! ### extrema.rs -/

/-- extrema.rs 53. -/
def phi : F := 618033988749895 / 10 ^ 15

/-- extrema.rs 59. -/
def goldenMaxIter : Nat := 100

/-- extrema.rs 62. -/
def probeEps : F := 1 / 10 ^ 7

/-- The mutable variables of `minimize_tol` (119-123). -/
structure GoldenState (F : Type) where
  lo : F
  hi : F
  x1 : F
  x2 : F
  f1 : F
  f2 : F

/-- extrema.rs 129-141: one iteration. `ph` is the constant `PHI`. -/
def goldenStep (ph : F) (f : F → F) (s : GoldenState F) : GoldenState F :=
  if s.f1 < s.f2 then
    let hi := s.x2
    let x1 := hi - ph * (hi - s.lo)
    { lo := s.lo, hi := hi, x1 := x1, x2 := s.x1, f1 := f x1, f2 := s.f1 }
  else
    let lo := s.x1
    let x2 := lo + ph * (s.hi - lo)
    { lo := lo, hi := s.hi, x1 := s.x2, x2 := x2, f1 := s.f2, f2 := f x2 }

/-- extrema.rs 125-142. -/
def goldenLoop (ph : F) (f : F → F) (tol : F) : Nat → GoldenState F → GoldenState F
  | 0, s => s
  | n + 1, s => if s.hi - s.lo < tol then s else goldenLoop ph f tol n (goldenStep ph f s)

/-- extrema.rs 119-123. -/
def goldenInit (ph : F) (f : F → F) (start stop : F) : GoldenState F :=
  let x1 := stop - (stop - start) * ph
  let x2 := start + (stop - start) * ph
  { lo := start, hi := stop, x1 := x1, x2 := x2, f1 := f x1, f2 := f x2 }

/-- extrema.rs 110-146. -/
def minimizeTol (ph : F) (start stop : F) (f : F → F) (tol : F) : F × F :=
  let s := goldenLoop ph f tol goldenMaxIter (goldenInit ph f start stop)
  let t := (s.lo + s.hi) / 2
  (t, f t)

/-- extrema.rs 163-175. -/
def maximizeTol (ph : F) (start stop : F) (f : F → F) (tol : F) : F × F :=
  let t := (minimizeTol ph start stop (fun t => -f t) tol).1
  (t, f t)

/-- extrema.rs 70-75. -/
inductive Kind where
  | maximum
  | minimum
deriving DecidableEq, Repr

/-- extrema.rs 185-206. -/
def classify (t : F) (f : F → F) : Option Kind :=
  let fc := f t
  let fl := f (t - probeEps)
  let fr := f (t + probeEps)
  if fc ≥ fl ∧ fc ≥ fr then some .maximum
  else if fc ≤ fl ∧ fc ≤ fr then some .minimum
  else none

/-- extrema.rs 81-88. -/
structure Extremum (F : Type) where
  t : F
  value : F
  kind : Kind

/-- extrema.rs 250-257, 262-269: the next sample time. -/
def nextSample (tEnd step t : F) : F := if t + step ≤ tEnd then t + step else tEnd

/-- extrema.rs 276-292: what one pair of consecutive steps contributes. -/
def detect (ph : F) (f : F → F) (tol t0 t2 : F) (prevRising nowRising : Bool) :
    List (Extremum F) :=
  if prevRising && !nowRising then
    let r := maximizeTol ph t0 t2 f tol
    [⟨r.1, r.2, .maximum⟩]
  else if !prevRising && nowRising then
    let r := minimizeTol ph t0 t2 f tol
    [⟨r.1, r.2, .minimum⟩]
  else []

/-- extrema.rs 261-299. -/
def extremaLoop (ph : F) (f : F → F) (tEnd step tol : F) :
    Nat → (t0 t1 : F) → (prevRising : Bool) → List (Extremum F) → Option (List (Extremum F))
  | 0, _, _, _, _ => none
  | n + 1, t0, t1, prevRising, acc =>
    let t2 := nextSample tEnd step t1
    if t2 ≤ t1 then some acc
    else
      let nowRising : Bool := decide (f t2 > f t1)
      extremaLoop ph f tEnd step tol n t1 t2 nowRising
        (acc ++ detect ph f tol t0 t2 prevRising nowRising)

/-- extrema.rs 229-306. The values `f0`, `f1`, `f2` the code carries along are `f t0`, `f t1`,
`f t2`. The final sort is stable (`sort_by`). -/
def findExtremaTol (ph : F) (fuel : Nat) (start stop step : F) (f : F → F) (tol : F) :
    Option (List (Extremum F)) :=
  if step ≤ 0 ∨ start ≥ stop then some []
  else
    let t1 := nextSample stop step start
    (extremaLoop ph f stop step tol fuel start t1 (decide (f t1 > f start)) []).map
      (fun l => l.mergeSort (fun a b => decide (a.t ≤ b.t)))

/-- extrema.rs 328-337. -/
def finiteDiff (f : F → F) (h t : F) : F := (f (t + h) - f (t - h)) / (h + h)

/-- extrema.rs 343-377. `opposite_sign` (44-46) is a product of signums below zero. -/
def derivLoop (sg : F → Int) (f deriv : F → F) (tEnd step : F) :
    Nat → (t prevD : F) → List (Extremum F) → Option (List (Extremum F))
  | 0, _, _, _ => none
  | n + 1, t, prevD, acc =>
    if t < tEnd then
      let nextT := nextSample tEnd step t
      let nextD := deriv nextT
      let acc :=
        if sg prevD * sg nextD < 0 then
          match brentWithValues sg t nextT prevD nextD deriv with
          | some r =>
            let kind := match classify r f with
              | some k => k
              | none => if prevD > 0 then Kind.maximum else Kind.minimum
            acc ++ [⟨r, f r, kind⟩]
          | none => acc
        else acc
      derivLoop sg f deriv tEnd step n nextT nextD acc
    else some acc

/-- extrema.rs 313-382. -/
def findExtremaViaDerivative (sg : F → Int) (fuel : Nat) (start stop step : F) (f : F → F)
    (fdStep : F) : Option (List (Extremum F)) :=
  let deriv := finiteDiff f fdStep
  (derivLoop sg f deriv stop step fuel start (deriv start) []).map
    (fun l => l.mergeSort (fun a b => decide (a.t ≤ b.t)))

end Verif.RootFinding
