import Mathlib.Data.Rat.Floor
import Mathlib.Algebra.Order.Floor.Ring
import Verif.Text.Model

/-!
IEEE 754 binary64 bit patterns, two's complement integers, byte order and `usize` arithmetic, as
Rust's `core` defines them (no file of /repo). A 64-bit target is assumed.
-/
namespace Verif.Bits
open Verif.Text

abbrev Bytes := List UInt8

/-- Little-endian value of a byte string. -/
def leNat : Bytes → Nat
  | [] => 0
  | b :: bs => b.toNat + 256 * leNat bs

/-- Big-endian value of a byte string. -/
def beNat (b : Bytes) : Nat := leNat b.reverse

/-- The first `k` little-endian bytes of a number. -/
def natLE : Nat → Nat → Bytes
  | 0, _ => []
  | k + 1, n => UInt8.ofNat (n % 256) :: natLE k (n / 256)

/-- Byte string of a number in the given byte order. -/
def natBytes (le : Bool) (k n : Nat) : Bytes := if le then natLE k n else (natLE k n).reverse

/-- `from_le_bytes` / `from_be_bytes`. -/
def bytesNat (le : Bool) (b : Bytes) : Nat := if le then leNat b else beNat b

/-- `data[off..off + n]`; `none` is the out-of-bounds panic. -/
def sliceB (data : Bytes) (off n : Nat) : Option Bytes :=
  if off + n ≤ data.length then some ((data.drop off).take n) else none

/-- Sign bit of a binary64 pattern. -/
def fSign (w : BitVec 64) : Bool := decide (2 ^ 63 ≤ w.toNat)

/-- Biased exponent field. -/
def fExp (w : BitVec 64) : Nat := w.toNat / 2 ^ 52 % 2 ^ 11

/-- Fraction field. -/
def fMant (w : BitVec 64) : Nat := w.toNat % 2 ^ 52

/-- The finite value of a binary64 pattern; `none` for infinities and NaN. -/
def fVal (w : BitVec 64) : Option ℚ :=
  if fExp w = 2047 then none
  else
    let m : ℚ :=
      if fExp w = 0 then (fMant w : ℚ) * (2 : ℚ) ^ (-1074 : ℤ)
      else ((2 ^ 52 + fMant w : ℕ) : ℚ) * (2 : ℚ) ^ ((fExp w : ℤ) - 1075)
    some (if fSign w then -m else m)

/-- NaN: exponent all ones and a non-zero fraction. -/
def fIsNan (w : BitVec 64) : Bool := fExp w == 2047 && fMant w != 0

/-- Truncation towards zero. -/
def truncRat (q : ℚ) : Int := if 0 ≤ q then ⌊q⌋ else ⌈q⌉

/-- `x as iN`/`uN`: truncate, saturate at the bounds, NaN becomes zero. -/
def fCast (lo hi : Int) (w : BitVec 64) : Int :=
  match fVal w with
  | some q => max lo (min hi (truncRat q))
  | none => if fIsNan w then 0 else if fSign w then lo else hi

/-- `x as usize` for a float. -/
def fToUsize (w : BitVec 64) : Nat := (fCast 0 (2 ^ 64 - 1) w).toNat

/-- `x as i64` for a float. -/
def fToI64 (w : BitVec 64) : Int := fCast (-(2 ^ 63)) (2 ^ 63 - 1) w

/-- `x as usize` for a signed integer: sign extension, two's complement. -/
def iToUsize (i : Int) : Nat := (i % 2 ^ 64).toNat

/-- `a + b` on `usize`. With overflow checks (debug builds) an overflow panics, without them it
wraps. -/
def addU {ε : Type} (ck : Bool) (a b : Nat) : Res ε Nat :=
  if a + b < 2 ^ 64 then .ok (a + b) else if ck then .panic else .ok ((a + b) % 2 ^ 64)

/-- `a - b` on `usize`. -/
def subU {ε : Type} (ck : Bool) (a b : Nat) : Res ε Nat :=
  if b ≤ a then .ok (a - b) else if ck then .panic else .ok ((a + 2 ^ 64 - b) % 2 ^ 64)

/-- `a * b` on `usize`. -/
def mulU {ε : Type} (ck : Bool) (a b : Nat) : Res ε Nat :=
  if a * b < 2 ^ 64 then .ok (a * b) else if ck then .panic else .ok ((a * b) % 2 ^ 64)

/-- The binary64 pattern of a natural number below `2^53`. -/
def fOfNat (n : Nat) : BitVec 64 :=
  if n = 0 then 0
  else BitVec.ofNat 64 ((1023 + n.log2) * 2 ^ 52 + (n - 2 ^ n.log2) * 2 ^ (52 - n.log2))

end Verif.Bits
