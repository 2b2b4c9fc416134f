import Mathlib.Algebra.Order.Field.Basic
import Verif.TextKernel.Model

/-
Model of `/repo/src/formats/spice/lsk.rs` and of the conversions of `sclk.rs` (same directory).
-/
namespace Verif.TextKernel
open Verif.Text

/-- The order of `f64::total_cmp` on the values read from text (`-0.0` and the sign of NaN are not
modelled). -/
def leF : F64 → F64 → Bool
  | _, .nan => true
  | .nan, _ => false
  | .inf true, _ => true
  | _, .inf false => true
  | .inf false, _ => false
  | _, .inf true => false
  | .num a, .num b => decide (a ≤ b)

/-- The comparison `a <= b` of `f64`. -/
def ieeeLe (a b : F64) : Bool := decide (a ≠ .nan) && decide (b ≠ .nan) && leF a b

/-- lsk.rs 95-103. -/
def scalarAsF64 : TextValue → R F64
  | .int i => .ok (toF i)
  | .float x => .ok x
  | _ => .error ()

def months : List Str :=
  ["JAN", "FEB", "MAR", "APR", "MAY", "JUN", "JUL", "AUG", "SEP", "OCT", "NOV", "DEC"].map String.toList

/-- lsk.rs 146-164. -/
def monthNumber (s : Str) : R Int :=
  match months.findIdx? (fun m => m = upper (trim s)) with
  | some i => .ok (i + 1)
  | none => .error ()

/-- lsk.rs 166-171 (`i32` without overflow: |year| below 5 million); twice the result, which is an
integer. Rust division truncates. -/
def gregorianToJd2 (y m d : Int) : Int :=
  let term1 := 367 * y
  let term2 := (7 * (y + (m + 9).tdiv 12)).tdiv 4
  let term3 := (275 * m).tdiv 9
  2 * (term1 - term2 + term3 + d + 1721013) + 1

/-- lsk.rs 143: Julian Date (doubled) to seconds past J2000. -/
def jd2ToSeconds (j : Int) : ℚ := ((j : ℚ) / 2 - 2451545) * 86400

/-- lsk.rs 116-144. -/
def parseEpochText (s : Str) : R F64 :=
  match trim s with
  | '@' :: date =>
    match splitChar '-' date with
    | y :: m :: d :: _ =>
      match parseInt (2 ^ 31 - 1) y with
      | none => .error ()
      | some y =>
        match monthNumber m with
        | .error x => .error x
        | .ok m =>
          match parseInt (2 ^ 31 - 1) d with
          | none => .error ()
          | some d => .ok (.num (jd2ToSeconds (gregorianToJd2 y m d)))
    | _ => .error ()
  | _ => .error ()

/-- lsk.rs 105-114. -/
def epochAsSeconds : TextValue → R F64
  | .int i => .ok (toF i)
  | .float x => .ok x
  | .text s => parseEpochText s
  | .array _ => .error ()

/-- lsk.rs 63-67; `none` for an odd number of entries. -/
def leapPairs : List TextValue → R (List (F64 × F64))
  | [] => .ok []
  | [_] => .error ()
  | d :: e :: rest =>
    match scalarAsF64 d with
    | .error x => .error x
    | .ok d =>
      match epochAsSeconds e with
      | .error x => .error x
      | .ok e =>
        match leapPairs rest with
        | .error x => .error x
        | .ok l => .ok ((e, d) :: l)

/-- Insertion behind all entries that are not greater. -/
def insertBy (x : F64 × F64) : List (F64 × F64) → List (F64 × F64)
  | [] => [x]
  | y :: l => if leF y.1 x.1 then y :: insertBy x l else x :: y :: l

/-- lsk.rs 68: the stable sort (its result does not depend on the algorithm). -/
def sortTable (l : List (F64 × F64)) : List (F64 × F64) := l.foldl (fun acc x => insertBy x acc) []

structure Lsk where
  deltaTA : F64
  table : List (F64 × F64)
deriving DecidableEq

/-- lsk.rs 36-74. -/
def lskFromText (src : Str) : Option (R Lsk) :=
  match parse src with
  | none => none
  | some (.error x) => some (.error x)
  | some (.ok k) =>
    match get k "DELTET/DELTA_T_A".toList with
    | none => some (.error ())
    | some v =>
      match scalarAsF64 v with
      | .error x => some (.error x)
      | .ok dta =>
        match get k "DELTET/DELTA_AT".toList with
        | some (.array l) =>
          match leapPairs l with
          | .error x => some (.error x)
          | .ok t => some (.ok ⟨dta, sortTable t⟩)
        | _ => some (.error ())

/-- lsk.rs 79-86: the loop. -/
def taiLoop (t : F64) : List (F64 × F64) → F64 → F64
  | [], best => best
  | (e, d) :: rest, best => if ieeeLe e t then taiLoop t rest d else best

/-- lsk.rs 77-87. -/
def taiMinusUtc (table : List (F64 × F64)) (t : F64) : F64 := taiLoop t table (.num 0)

/-! ### sclk.rs -/

section sclk
variable {K : Type} [Field K] [LinearOrder K]

/-- sclk.rs 27-34. -/
structure Coef (K : Type) where
  sclkdp : K
  et : K
  rate : K

/-- sclk.rs 117-124, 143-150: the loop over windows of two, then the last. -/
def partLoop (key : Coef K → K) (x : K) : List (Coef K) → Option (Coef K)
  | [] => none
  | [c] => some c
  | c :: n :: rest => if key c ≤ x ∧ x < key n then some c else partLoop key x (n :: rest)

/-- sclk.rs 104-125 (`key = et`) and 127-151 (`key = sclkdp`). -/
def partitionFor (key : Coef K → K) (cs : List (Coef K)) (x : K) : Option (Coef K) :=
  match cs with
  | [] => none
  | first :: _ => if x < key first then none else partLoop key x cs

/-- sclk.rs 93-96. -/
def etToSclkdp (cs : List (Coef K)) (et : K) : Option K :=
  (partitionFor Coef.et cs et).map (fun c => c.sclkdp + (et - c.et) * c.rate)

/-- sclk.rs 99-102. -/
def sclkdpToEt (cs : List (Coef K)) (x : K) : Option K :=
  (partitionFor Coef.sclkdp cs x).map (fun c => c.et + (x - c.sclkdp) / c.rate)

end sclk

end Verif.TextKernel
