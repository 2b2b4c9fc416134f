import Verif.Bits.Model
import Mathlib.Data.Rat.Floor

/-
Model of src/formats/sck.rs (`parse_sck`) and of the record search and block loop of src/ephemeris/lagrange/{mod,fit}.rs.
Floats of the file are bit patterns; the evaluation is over the rationals. The Chebyshev evaluation and fit (crate `cheby`)
and the Lagrange point solver are parameters. `usize` has 64 bits.
-/
namespace Verif.Sck
open Verif.Text Verif.Bits

inductive SckErr where
  | short
  | magic
  | overflow
  | payload
deriving DecidableEq, Repr

/-- sck.rs 28-46. -/
structure Header where
  ncoeff : BitVec 32
  count : BitVec 32
  center : BitVec 32
  target : BitVec 32
  frame : BitVec 32
  scale : BitVec 32
  validFrom : BitVec 64
  validTo : BitVec 64
deriving DecidableEq

/-- sck.rs 48-55. -/
structure Kernel where
  header : Header
  records : List (BitVec 64)
deriving DecidableEq

/-- sck.rs 22: `SCKERN01`. -/
def magic : Bytes := [83, 67, 75, 69, 82, 78, 48, 49]

/-- sck.rs 121-131; the ranges are inside the 64 bytes that were checked. -/
def u32At (b : Bytes) (off : Nat) : BitVec 32 := BitVec.ofNat 32 (leNat ((b.drop off).take 4))

def f64At (b : Bytes) (off : Nat) : BitVec 64 := BitVec.ofNat 64 (leNat ((b.drop off).take 8))

/-- sck.rs 115-117: `chunks_exact(8)`. -/
def chunks : Bytes → List (BitVec 64)
  | a :: b :: c :: d :: e :: f :: g :: h :: t => BitVec.ofNat 64 (leNat [a, b, c, d, e, f, g, h]) :: chunks t
  | _ => []

/-- sck.rs 86-95. -/
def header (b : Bytes) : Header :=
  ⟨u32At b 8, u32At b 12, u32At b 16, u32At b 20, u32At b 24, u32At b 28, f64At b 32, f64At b 40⟩

/-- sck.rs 71-119. `ck`: overflow checks are on. Line 114 panics when the capacity exceeds `isize::MAX` bytes. -/
def parse (ck : Bool) (b : Bytes) : Res SckErr Kernel :=
  if b.length < 64 then .err .short
  else if b.take 8 ≠ magic then .err .magic
  else
    let h := header b
    let stride := 2 + 3 * h.ncoeff.toNat
    if 2 ^ 64 ≤ stride * h.count.toNat then .err .overflow
    else
      let expected := stride * h.count.toNat
      let payload := b.drop 64
      (mulU ck expected 8).bind (fun size =>
        if payload.length ≠ size then .err .payload
        else if 2 ^ 63 ≤ expected * 8 then .panic
        else .ok ⟨h, chunks payload⟩)

/-! ### Evaluation: lagrange/mod.rs -/

/-- The outcome of mod.rs 173-219 `evaluate_records`: a position, a position divided by a radius of zero, or out of range. -/
inductive Eval where
  | pos (x y z : ℚ)
  | nan
  | out (first last : Option ℚ)
deriving DecidableEq

/-- mod.rs 193-199: `f64::min` from infinity, `f64::max` from minus infinity. -/
def optMin : Option ℚ → ℚ → Option ℚ
  | none, x => some x
  | some a, x => some (min a x)

def optMax : Option ℚ → ℚ → Option ℚ
  | none, x => some x
  | some a, x => some (max a x)

/-- mod.rs 201-210. One record: `record[2..2 + n]`, `record[2 + n..2 + 2n]`, `record[2 + 2n..2 + 3n]`. -/
def evalRecord (cheby : List ℚ → ℚ → ℚ) (n : Nat) (mid radius s : ℚ) (cs : List ℚ) : Eval :=
  if radius = 0 then .nan
  else
    let tau := (s - mid) / radius
    .pos (cheby (cs.take n) tau) (cheby ((cs.drop n).take n) tau) (cheby ((cs.drop (2 * n)).take n) tau)

/-- mod.rs 195-212, loop over `chunks_exact(record_len)`; `fuel` is at least the number of records. -/
def search (cheby : List ℚ → ℚ → ℚ) (n : Nat) (s : ℚ) : Nat → Option ℚ → Option ℚ → List ℚ → Eval
  | 0, first, last, _ => .out first last
  | fuel + 1, first, last, rs =>
    match rs with
    | mid :: radius :: more =>
      if more.length < 3 * n then .out first last
      else if mid - radius ≤ s ∧ s ≤ mid + radius then evalRecord cheby n mid radius s (more.take (3 * n))
      else search cheby n s fuel (optMin first (mid - radius)) (optMax last (mid + radius)) (more.drop (3 * n))
    | _ => .out first last

/-- mod.rs 173-219 `evaluate_records`. The time is given in seconds since J2000; the first test reports the fixed range of the archive. -/
def evaluate (cheby : List ℚ → ℚ → ℚ) (range : ℚ × ℚ) (n : Nat) (s : ℚ) (records : List ℚ) : Eval :=
  if records = [] ∨ n = 0 ∨ records.length % (2 + 3 * n) ≠ 0 then .out (some range.1) (some range.2)
  else search cheby n s records.length none none records

/-! ### Fit: lagrange/fit.rs 202-257 -/

/-- fit.rs 298-315 (finite numbers). -/
def configOk (from_ to_ block step : ℚ) : Bool := decide (from_ < to_) && decide (0 < block) && decide (0 < step)

/-- fit.rs 214-248: the records; `sample` gives the three coefficient lists of a block. `add` is the floating-point addition of line 215;
`none` is a loop that has not ended. -/
def fitLoop (add : ℚ → ℚ → ℚ) (sample : ℚ → ℚ → List ℚ × List ℚ × List ℚ) (to_ block : ℚ) : Nat → ℚ → Option (List ℚ)
  | fuel, start =>
    if start < to_ then
      match fuel with
      | 0 => none
      | fuel + 1 =>
        let stop := min (add start block) to_
        let mid := 1 / 2 * (start + stop)
        let radius := 1 / 2 * (stop - start)
        let (cx, cy, cz) := sample mid radius
        (fitLoop add sample to_ block fuel stop).map (fun rest => mid :: radius :: (cx ++ cy ++ cz) ++ rest)
    else some []

end Verif.Sck
