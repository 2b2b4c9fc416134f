/-
Model of `/repo/src/checksum.rs` (SHA-256, hex helpers, integrity gate).

Bytes are `BitVec 8`, words `BitVec 32`. Fixed-size arrays are lists written with `List.set` and
read with `getD _ 0`; all indices used below are inside the arrays, which is part of what the
refinement theorem shows (a wrong index would break it).
A Rust panic is the outcome `none`.
-/
namespace Verif.Sha256

abbrev Byte := BitVec 8
abbrev Word := BitVec 32

/-- checksum.rs 86-95: round constants. -/
def K : List Word := [
  0x428a2f98#32, 0x71374491#32, 0xb5c0fbcf#32, 0xe9b5dba5#32, 0x3956c25b#32, 0x59f111f1#32, 0x923f82a4#32, 0xab1c5ed5#32,
  0xd807aa98#32, 0x12835b01#32, 0x243185be#32, 0x550c7dc3#32, 0x72be5d74#32, 0x80deb1fe#32, 0x9bdc06a7#32, 0xc19bf174#32,
  0xe49b69c1#32, 0xefbe4786#32, 0x0fc19dc6#32, 0x240ca1cc#32, 0x2de92c6f#32, 0x4a7484aa#32, 0x5cb0a9dc#32, 0x76f988da#32,
  0x983e5152#32, 0xa831c66d#32, 0xb00327c8#32, 0xbf597fc7#32, 0xc6e00bf3#32, 0xd5a79147#32, 0x06ca6351#32, 0x14292967#32,
  0x27b70a85#32, 0x2e1b2138#32, 0x4d2c6dfc#32, 0x53380d13#32, 0x650a7354#32, 0x766a0abb#32, 0x81c2c92e#32, 0x92722c85#32,
  0xa2bfe8a1#32, 0xa81a664b#32, 0xc24b8b70#32, 0xc76c51a3#32, 0xd192e819#32, 0xd6990624#32, 0xf40e3585#32, 0x106aa070#32,
  0x19a4c116#32, 0x1e376c08#32, 0x2748774c#32, 0x34b0bcb5#32, 0x391c0cb3#32, 0x4ed8aa4a#32, 0x5b9cca4f#32, 0x682e6ff3#32,
  0x748f82ee#32, 0x78a5636f#32, 0x84c87814#32, 0x8cc70208#32, 0x90befffa#32, 0xa4506ceb#32, 0xbef9a3f7#32, 0xc67178f2#32]

/-- checksum.rs 97-99: initial state. -/
def H0 : List Word := [
  0x6a09e667#32, 0xbb67ae85#32, 0x3c6ef372#32, 0xa54ff53a#32, 0x510e527f#32, 0x9b05688c#32, 0x1f83d9ab#32, 0x5be0cd19#32]

/-- checksum.rs 101-103. -/
def rotr (x : Word) (n : Nat) : Word := x.rotateRight n

/-- checksum.rs 106-114: `w` is zeroed, then `w[0..16]` are loaded big-endian from the block. -/
def loadWords (block : List Byte) : List Word :=
  (List.range 16).foldl (fun w i =>
    w.set i
      (((block.getD (i * 4) 0).setWidth 32 <<< 24)
        ||| ((block.getD (i * 4 + 1) 0).setWidth 32 <<< 16)
        ||| ((block.getD (i * 4 + 2) 0).setWidth 32 <<< 8)
        ||| (block.getD (i * 4 + 3) 0).setWidth 32))
    (List.replicate 64 0)

/-- checksum.rs 116-124: one iteration of the schedule loop. -/
def scheduleStep (w : List Word) (i : Nat) : List Word :=
  let s0 := rotr (w.getD (i - 15) 0) 7 ^^^ rotr (w.getD (i - 15) 0) 18 ^^^ (w.getD (i - 15) 0 >>> 3)
  let s1 := rotr (w.getD (i - 2) 0) 17 ^^^ rotr (w.getD (i - 2) 0) 19 ^^^ (w.getD (i - 2) 0 >>> 10)
  w.set i (w.getD (i - 16) 0 + s0 + w.getD (i - 7) 0 + s1)

/-- checksum.rs 106-124: the message schedule array. -/
def schedule (block : List Byte) : List Word :=
  (List.range' 16 48).foldl scheduleStep (loadWords block)

/-- Working variables `a..h` (checksum.rs 126-133). -/
structure Vars where
  a : Word
  b : Word
  c : Word
  d : Word
  e : Word
  f : Word
  g : Word
  h : Word
deriving DecidableEq

/-- checksum.rs 136-156: one round. -/
def round (w : List Word) (v : Vars) (i : Nat) : Vars :=
  let s1 := rotr v.e 6 ^^^ rotr v.e 11 ^^^ rotr v.e 25
  let ch := (v.e &&& v.f) ^^^ ((~~~ v.e) &&& v.g)
  let t1 := v.h + s1 + ch + K.getD i 0 + w.getD i 0
  let s0 := rotr v.a 2 ^^^ rotr v.a 13 ^^^ rotr v.a 22
  let mj := (v.a &&& v.b) ^^^ (v.a &&& v.c) ^^^ (v.b &&& v.c)
  let t2 := s0 + mj
  { h := v.g, g := v.f, f := v.e, e := v.d + t1, d := v.c, c := v.b, b := v.a, a := t1 + t2 }

/-- checksum.rs 105-166: the compression function; `&mut state` becomes the returned value. -/
def compress (state : List Word) (block : List Byte) : List Word :=
  let w := schedule block
  let v0 : Vars := { a := state.getD 0 0, b := state.getD 1 0, c := state.getD 2 0, d := state.getD 3 0,
                     e := state.getD 4 0, f := state.getD 5 0, g := state.getD 6 0, h := state.getD 7 0 }
  let v := (List.range 64).foldl (round w) v0
  [state.getD 0 0 + v.a, state.getD 1 0 + v.b, state.getD 2 0 + v.c, state.getD 3 0 + v.d,
   state.getD 4 0 + v.e, state.getD 5 0 + v.f, state.getD 6 0 + v.g, state.getD 7 0 + v.h]

/-- checksum.rs 180-185 and 221-226: copy 64 bytes from `src` at `off` into a block. -/
def readBlock (src : List Byte) (off : Nat) : List Byte :=
  (List.range 64).map (fun k => src.getD (off + k) 0)

/-- checksum.rs 178-188: compress every full block; returns the state and the final offset. -/
def fullBlocks (input : List Byte) (state : List Word) (off : Nat) : List Word × Nat :=
  if off + 64 ≤ input.length then
    fullBlocks input (compress state (readBlock input off)) (off + 64)
  else (state, off)
termination_by input.length - off

/-- checksum.rs 202-206. -/
def padZeros (rem : Nat) : Nat :=
  if rem % 64 < 56 then 55 - (rem % 64) else 55 + 64 - (rem % 64)

/-- checksum.rs 207. -/
def finalLen (rem : Nat) : Nat := rem + 1 + padZeros rem + 8

/-- checksum.rs 193-217: the 128-byte tail buffer. -/
def mkTail (input : List Byte) (off : Nat) : List Byte :=
  let bitLen : BitVec 64 := BitVec.ofNat 64 input.length * 8
  let rem := input.length - off
  let tail := (List.range rem).foldl (fun t k => t.set k (input.getD (off + k) 0)) (List.replicate 128 0)
  let tail := tail.set rem 0x80
  let lenOff := finalLen rem - 8
  let tail := tail.set lenOff ((bitLen >>> 56).setWidth 8)
  let tail := tail.set (lenOff + 1) ((bitLen >>> 48).setWidth 8)
  let tail := tail.set (lenOff + 2) ((bitLen >>> 40).setWidth 8)
  let tail := tail.set (lenOff + 3) ((bitLen >>> 32).setWidth 8)
  let tail := tail.set (lenOff + 4) ((bitLen >>> 24).setWidth 8)
  let tail := tail.set (lenOff + 5) ((bitLen >>> 16).setWidth 8)
  let tail := tail.set (lenOff + 6) ((bitLen >>> 8).setWidth 8)
  tail.set (lenOff + 7) (bitLen.setWidth 8)

/-- checksum.rs 219-229: compress the tail blocks at offsets `bi`, `bi + 64`, ... below `fin`. -/
def tailBlocks (tail : List Byte) (fin : Nat) (state : List Word) (bi : Nat) : List Word :=
  if bi < fin then tailBlocks tail fin (compress state (readBlock tail bi)) (bi + 64)
  else state
termination_by fin - bi

/-- checksum.rs 231-241: serialise the state big-endian into a zeroed 32-byte array. -/
def output (state : List Word) : List Byte :=
  (List.range 8).foldl (fun out o =>
    let v := state.getD o 0
    (((out.set (o * 4) ((v >>> 24).setWidth 8)).set (o * 4 + 1) ((v >>> 16).setWidth 8)).set
      (o * 4 + 2) ((v >>> 8).setWidth 8)).set (o * 4 + 3) (v.setWidth 8))
    (List.replicate 32 0)

/-- checksum.rs 172-242. -/
def sha256 (input : List Byte) : List Byte :=
  let (state, off) := fullBlocks input H0 0
  let rem := input.length - off
  let tail := mkTail input off
  output (tailBlocks tail (finalLen rem) state 0)

/-- checksum.rs 246-253. The Rust function works on a byte of the text; `none` is the panic. -/
def hexNibble (b : Byte) : Option Byte :=
  if 0x30 ≤ b ∧ b ≤ 0x39 then some (b - 0x30)
  else if 0x61 ≤ b ∧ b ≤ 0x66 then some (b - 0x61 + 10)
  else if 0x41 ≤ b ∧ b ≤ 0x46 then some (b - 0x41 + 10)
  else none

/-- checksum.rs 256-268, on the bytes of the text. `none` is a panic (wrong length or digit). -/
def hex32 (s : List Byte) : Option (List Byte) :=
  if s.length ≠ 64 then none
  else (List.range 32).foldlM (fun out i => do
    let hi ← hexNibble (s.getD (2 * i) 0)
    let lo ← hexNibble (s.getD (2 * i + 1) 0)
    pure (out.set i ((hi <<< 4) ||| lo))) (List.replicate 32 0)

/-- checksum.rs 272: `b"0123456789abcdef"`. -/
def hexTable : List Byte :=
  [0x30, 0x31, 0x32, 0x33, 0x34, 0x35, 0x36, 0x37, 0x38, 0x39, 0x61, 0x62, 0x63, 0x64, 0x65, 0x66]

/-- checksum.rs 271-279, returning the bytes of the text. -/
def toHex (digest : List Byte) : List Byte :=
  digest.foldl (fun (s : List Byte) (b : Byte) =>
    (s ++ [hexTable.getD (b >>> 4).toNat 0]) ++ [hexTable.getD (b &&& 0x0f).toNat 0]) []

/-- checksum.rs 294-305: the comparison loop from index `i`; `none` is the mismatch panic. -/
def compareFrom (actual expected : List Byte) (i : Nat) : Option Unit :=
  if i < 32 then
    if actual.getD i 0 ≠ expected.getD i 0 then none else compareFrom actual expected (i + 1)
  else some ()
termination_by 32 - i

/-- checksum.rs 290-306. `some ()` is a normal return, `none` a panic (compile error). -/
def assertSha256Eq (data : List Byte) (expected : List Byte) : Option Unit := do
  let actual := sha256 data
  let expected ← hex32 expected
  compareFrom actual expected 0

end Verif.Sha256
