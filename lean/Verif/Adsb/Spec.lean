import Verif.Adsb.Model
import Verif.Sha256.Spec

/-!
Bit-field view of a Mode S frame, independent of the byte manipulations of the code: the frame is a
112-bit number, most significant bit first, and fields are named by bit positions (first bit = 1) as
in DO-260B.
-/
namespace Verif.Adsb.Spec
open Verif.Text

/-- The big-endian number of a byte string. -/
def number (l : List Byte) : Nat := l.foldl (fun acc b => acc * 256 + b.toNat) 0

/-- Bits `first .. first + len - 1` of a `width`-bit number, counted from 1 at the top. -/
def field (width n first len : Nat) : Nat := n / 2 ^ (width + 1 - first - len) % 2 ^ len

/-- Field of the 112-bit frame. -/
def frameField (f : Frame) (first len : Nat) : Nat := field 112 (number f.bytes) first len

/-- The 56-bit ME payload: frame bits 33..88. -/
def meNumber (f : Frame) : Nat := frameField f 33 56

/-- Field of the ME payload. -/
def meField (f : Frame) (first len : Nat) : Nat := field 56 (meNumber f) first len

/-- Number written by hexadecimal digit values, base 16. -/
def hexNumber (ds : List Nat) : Nat := ds.foldl (fun acc d => acc * 16 + d) 0

/-- Six-bit alphabet of identification messages (ICAO Annex 10, 3.1.2.9.1.2): `A..Z` are 1..26, blank
is 32, `0..9` are 48..57. -/
def sixBit (n : Nat) : Option Char :=
  if 1 ≤ n ∧ n ≤ 26 then some (Char.ofNat (64 + n))
  else if n = 32 then some ' '
  else if 48 ≤ n ∧ n ≤ 57 then some (Char.ofNat n)
  else none

/-- `s` is `t` without its trailing blanks. -/
def StripBlanks (t s : Str) : Prop :=
  ∃ k, t = s ++ List.replicate k ' ' ∧ s.getLast? ≠ some ' '

/-- Feet per 25-ft altitude code: `25 N - 1000` with `N` the 12-bit code without its Q bit (bit 8 of
12, the bit of weight 16). -/
def altitudeFeet (code : Nat) : ℤ := 25 * ((code / 32 * 16 + code % 16 : ℕ) : ℤ) - 1000

/-- Signed knots of a velocity subfield: `raw - 1`, negative when the direction bit is set. -/
def knots (dir raw scale : Nat) : ℝ := (if dir = 1 then -1 else 1) * ((raw : ℝ) - 1) * scale

end Verif.Adsb.Spec
