import Mathlib.Analysis.SpecialFunctions.Trigonometric.Inverse
import Mathlib.Analysis.SpecialFunctions.Trigonometric.Basic
import Mathlib.Analysis.SpecialFunctions.Pow.Real

/-
Model of the attitude evaluation of `/repo/src/formats/spice/ck.rs`. Real arithmetic instead of `f64`;
`slice::binary_search_by` is a parameter with its documented contract.
-/
namespace Verif.Ck

/-- A quaternion, scalar first (ck.rs 32). -/
abbrev Q := Fin 4 → ℝ

/-- `f64::EPSILON`. -/
noncomputable def epsilon : ℝ := 2⁻¹ ^ 52

/-- Sum of products in the order of the iterator (ck.rs 248-251, 267-271). -/
def dot (a b : Q) : ℝ := a 0 * b 0 + a 1 * b 1 + a 2 * b 2 + a 3 * b 3

/-- ck.rs 247-262. -/
noncomputable def normalize (q : Q) : Q :=
  let norm := Real.sqrt (dot q q)
  if norm ≤ epsilon then q else fun i => q i / norm

/-- ck.rs 264-299. -/
noncomputable def slerp (left right : Q) (t : ℝ) : Q :=
  let left := normalize left
  let right := normalize right
  let d0 := dot left right
  let d := if d0 < 0 then -d0 else d0
  let right : Q := if d0 < 0 then fun i => -right i else right
  if 1 ≤ d then left
  else if 9995 / 10000 < d then normalize (fun i => left i + t * (right i - left i))
  else
    let theta := Real.arccos d
    let wl := Real.sin ((1 - t) * theta) / Real.sin theta
    let wr := Real.sin (t * theta) / Real.sin theta
    normalize (fun i => wl * left i + wr * right i)

/-- ck.rs 28-33. -/
structure Rec where
  t : ℝ
  q : Q

/-- ck.rs 37-48. -/
structure Segment where
  inst : Int
  start : ℝ
  stop : ℝ
  records : List Rec

inductive Err where
  | corrupted
  | outOfCoverage
  | unsupported
deriving DecidableEq

/-- The result of `binary_search_by`: `Ok(i)` or `Err(i)`. -/
inductive Found where
  | at (i : Nat)
  | insert (i : Nat)

/-- ck.rs 54-94. -/
noncomputable def evaluate (search : List Rec → ℝ → Found) (s : Segment) (x : ℝ) : Except Err Q :=
  match s.records with
  | [] => .error .corrupted
  | first :: rest =>
    let last := (first :: rest).getLast (by simp)
    if x < first.t ∨ last.t < x then .error .outOfCoverage
    else
      match search s.records x with
      | .at i => .ok (normalize ((s.records.getD i first).q))
      | .insert i =>
        if i = 0 ∨ s.records.length ≤ i then .error .outOfCoverage
        else
          let left := s.records.getD (i - 1) first
          let right := s.records.getD i first
          let span := right.t - left.t
          if |span| ≤ epsilon then .ok (normalize left.q)
          else .ok (slerp left.q right.q ((x - left.t) / span))

/-- ck.rs 156-169: the first segment of the instrument that covers the time; the flag tells whether the
instrument was seen. -/
noncomputable def rotationLoop (search : List Rec → ℝ → Found) (inst : Int) (x : ℝ) : List Segment → Bool → Except Err Q
  | [], seen => if seen then .error .outOfCoverage else .error .unsupported
  | s :: rest, seen =>
    if s.inst ≠ inst then rotationLoop search inst x rest seen
    else if s.start ≤ x ∧ x ≤ s.stop then evaluate search s x
    else rotationLoop search inst x rest true

/-- ck.rs 154-184. -/
noncomputable def rotation (search : List Rec → ℝ → Found) (segs : List Segment) (inst : Int) (x : ℝ) : Except Err Q :=
  rotationLoop search inst x segs false

/-- ck.rs 236: sorted insertion, stable. -/
noncomputable def insertRec (r : Rec) : List Rec → List Rec
  | [] => [r]
  | y :: l => if y.t ≤ r.t then y :: insertRec r l else r :: y :: l

/-- ck.rs 223-236: the records of a segment from the raw five-word groups. -/
noncomputable def readRecords (raw : List Rec) : List Rec :=
  (raw.map (fun r => ⟨r.t, normalize r.q⟩)).foldl (fun acc r => insertRec r acc) []

end Verif.Ck
