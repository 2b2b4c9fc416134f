/-
Specification of SHA-256, written from FIPS 180-4 (sections 3.2, 4.1.2, 4.2.2, 5.1.1, 5.2.1,
5.3.3, 6.2) without reference to the model.
-/
namespace Verif.Sha256.Spec

/-- FIPS 180-4 §3.2: rotate right, written with shifts as in the standard. -/
def ROTR (n : Nat) (x : BitVec 32) : BitVec 32 := (x >>> n) ||| (x <<< (32 - n))
def SHR (n : Nat) (x : BitVec 32) : BitVec 32 := x >>> n

/-- FIPS 180-4 §4.1.2. -/
def Ch (x y z : BitVec 32) : BitVec 32 := (x &&& y) ^^^ (~~~x &&& z)
def Maj (x y z : BitVec 32) : BitVec 32 := (x &&& y) ^^^ (x &&& z) ^^^ (y &&& z)
def Sigma0 (x : BitVec 32) : BitVec 32 := ROTR 2 x ^^^ ROTR 13 x ^^^ ROTR 22 x
def Sigma1 (x : BitVec 32) : BitVec 32 := ROTR 6 x ^^^ ROTR 11 x ^^^ ROTR 25 x
def sigma0 (x : BitVec 32) : BitVec 32 := ROTR 7 x ^^^ ROTR 18 x ^^^ SHR 3 x
def sigma1 (x : BitVec 32) : BitVec 32 := ROTR 17 x ^^^ ROTR 19 x ^^^ SHR 10 x

/-- The prime numbers below 312 in order; these are the first 64 primes. -/
def primes : List Nat :=
  (List.range 312).filter (fun n => 2 ≤ n ∧ (List.range n).all (fun d => d < 2 || n % d ≠ 0))

/-- Largest `r` with `r ^ k ≤ n`, by bisection on `lo ≤ r < lo + 2 ^ bits`. -/
def rootFloor (k n : Nat) : (bits : Nat) → (lo : Nat) → Nat
  | 0, lo => lo
  | b + 1, lo => if (lo + 2 ^ b) ^ k ≤ n then rootFloor k n b (lo + 2 ^ b) else rootFloor k n b lo

/-- FIPS 180-4 §4.2.2: first 32 bits of the fractional part of the cube root of a prime, that is
`⌊2^32 · p^(1/3)⌋ mod 2^32`. -/
def Kconst (t : Nat) : BitVec 32 := BitVec.ofNat 32 (rootFloor 3 (primes.getD t 0 * 2 ^ 96) 40 0)

/-- FIPS 180-4 §5.3.3: the same with the square root of the first eight primes. -/
def Hconst (t : Nat) : BitVec 32 := BitVec.ofNat 32 (rootFloor 2 (primes.getD t 0 * 2 ^ 64) 40 0)

/-- Big-endian 32-bit word. -/
def beWord (b0 b1 b2 b3 : BitVec 8) : BitVec 32 := b0 ++ b1 ++ b2 ++ b3

/-- FIPS 180-4 §6.2.2 step 1: the message schedule of a block, as a recursion. -/
def W (block : Nat → BitVec 8) (t : Nat) : BitVec 32 :=
  if t < 16 then beWord (block (4 * t)) (block (4 * t + 1)) (block (4 * t + 2)) (block (4 * t + 3))
  else sigma1 (W block (t - 2)) + W block (t - 7) + sigma0 (W block (t - 15)) + W block (t - 16)

/-- Eight words, indexed 0..7 (the hash value `H`, or the working variables `a..h`). -/
abbrev Hash := Nat → BitVec 32

/-- FIPS 180-4 §6.2.2 step 3: working variables after `t` rounds, started from `H`. -/
def vars (block : Nat → BitVec 8) (H : Hash) : Nat → Hash
  | 0 => H
  | t + 1 =>
    let v := vars block H t
    let T1 := v 7 + Sigma1 (v 4) + Ch (v 4) (v 5) (v 6) + Kconst t + W block t
    let T2 := Sigma0 (v 0) + Maj (v 0) (v 1) (v 2)
    fun i =>
      if i = 0 then T1 + T2 else if i = 4 then v 3 + T1 else v (i - 1)

/-- FIPS 180-4 §6.2.2 step 4: the intermediate hash value after one block. -/
def hashBlock (H : Hash) (block : Nat → BitVec 8) : Hash := fun i => vars block H 64 i + H i

/-- The eight bytes of a 64-bit big-endian number. -/
def be64 (n : Nat) : List (BitVec 8) :=
  [56, 48, 40, 32, 24, 16, 8, 0].map (fun s => BitVec.ofNat 8 (n / 2 ^ s))

/-- FIPS 180-4 §5.1.1 for byte messages: append the bit `1`, then `k` zero bits, then the 64-bit
length; `zeros` is the least number of zero bytes that makes the total a multiple of 64 bytes. -/
def zeros (len : Nat) : Nat := (64 - (len + 9) % 64) % 64

def pad (m : List (BitVec 8)) : List (BitVec 8) :=
  m ++ 0x80#8 :: (List.replicate (zeros m.length) 0#8 ++ be64 (8 * m.length))

/-- FIPS 180-4 §6.2.2: hash value after the first `n` blocks of the padded message `p`. -/
def hashN (p : List (BitVec 8)) : Nat → Hash
  | 0 => Hconst
  | n + 1 => hashBlock (hashN p n) (fun k => p.getD (64 * n + k) 0)

/-- The digest: the eight words of the final hash value, most significant byte first. -/
def sha256 (m : List (BitVec 8)) : List (BitVec 8) :=
  let H := hashN (pad m) ((pad m).length / 64)
  (List.range 8).flatMap (fun i => [24, 16, 8, 0].map (fun s => (H i >>> s).setWidth 8))

/-- Value of a hexadecimal digit character, if it is one. -/
def hexVal (c : Char) : Option Nat :=
  if '0' ≤ c ∧ c ≤ '9' then some (c.toNat - '0'.toNat)
  else if 'a' ≤ c ∧ c ≤ 'f' then some (c.toNat - 'a'.toNat + 10)
  else if 'A' ≤ c ∧ c ≤ 'F' then some (c.toNat - 'A'.toNat + 10)
  else none

end Verif.Sha256.Spec
