import Verif.Bits.Model

/-
The DAF file layout, from the NAIF "DAF Required Reading": what a file that holds given summaries
looks like. Nothing here refers to the readers.
-/
namespace Verif.Daf.Spec
open Verif.Bits

/-- `bs` stands at byte offset `off` of `data`. -/
def At (data : Bytes) (off : Nat) (bs : Bytes) : Prop :=
  ∃ pre post, data = pre ++ bs ++ post ∧ pre.length = off

/-- A double word in the byte order of the file. -/
def f64b (le : Bool) (x : BitVec 64) : Bytes := natBytes le 8 x.toNat

/-- An integer in the byte order of the file. -/
def i32b (le : Bool) (x : BitVec 32) : Bytes := natBytes le 4 x.toNat

/-- One array summary: ND doubles, then NI integers packed two to a double word. -/
structure Entry where
  doubles : List (BitVec 64)
  ints : List (BitVec 32)

def encEntry (le : Bool) (e : Entry) : Bytes :=
  e.doubles.flatMap (f64b le) ++ e.ints.flatMap (i32b le) ++
    List.replicate (e.ints.length % 2 * 4) 0

/-- The control words and summaries of a summary record. -/
def recordBody (le : Bool) (next prev : Nat) (es : List Entry) : Bytes :=
  f64b le (fOfNat next) ++ f64b le (fOfNat prev) ++ f64b le (fOfNat es.length) ++
    es.flatMap (encEntry le)

/-- Starting at record number `r`, following the forward pointers of `data` passes through records
that hold the given groups of summaries, and ends at a zero pointer. The records may stand
anywhere, in any order. -/
inductive Chain (le : Bool) (nd ni : Nat) (data : Bytes) : Nat → List (List Entry) → Prop
  | done : Chain le nd ni data 0 []
  | link {r next prev : Nat} {es : List Entry} {rest : List (List Entry)} :
      r ≠ 0 → r < 2 ^ 53 → next < 2 ^ 53 → es.length < 2 ^ 53 → r * 1024 ≤ data.length →
      (∀ e ∈ es, e.doubles.length = nd ∧ e.ints.length = ni) →
      At data ((r - 1) * 1024) (recordBody le next prev es) →
      Chain le nd ni data next rest → Chain le nd ni data r (es :: rest)

/-- The file record: locator, ND, NI, internal name, first summary record. -/
def header (le : Bool) (loc : Bytes) (nd ni fward : Nat) (name tail : Bytes) : Bytes :=
  loc ++ i32b le (BitVec.ofNat 32 nd) ++ i32b le (BitVec.ofNat 32 ni) ++ name ++
    i32b le (BitVec.ofNat 32 fward) ++ tail

/-- The header of `data`. -/
structure HasHeader (le : Bool) (nd ni fward : Nat) (data : Bytes) : Prop where
  nd_range : 1 ≤ nd ∧ nd ≤ 100
  ni_range : 1 ≤ ni ∧ ni ≤ 100
  fward_lt : fward < 2 ^ 31
  size : 1024 ≤ data.length
  layout : ∃ loc name tail rest, data = header le loc nd ni fward name tail ++ rest ∧
    loc.length = 8 ∧ name.length = 60 ∧ "DAF/".toList.map (fun c => UInt8.ofNat c.toNat) <+: loc ∧
    ∀ b ∈ loc, b < 128

/-- The file record's counts are plausible in this byte order (never in both). -/
def ByteOrder (le : Bool) (data : Bytes) : Prop :=
  ∃ nd ni : BitVec 32, At data 8 (i32b le nd) ∧ At data 12 (i32b le ni) ∧
    1 ≤ nd.toInt ∧ nd.toInt ≤ 100 ∧ 1 ≤ ni.toInt ∧ ni.toInt ≤ 100

/-- The record numbers met when following forward pointers from `first`. -/
inductive Reach (le : Bool) (data : Bytes) (first : Int) : Int → Prop
  | start : Reach le data first first
  | next {r : Int} {w : BitVec 64} : Reach le data first r → 0 < r →
      At data ((r - 1).toNat * 1024) (f64b le w) → Reach le data first (fToI64 w)

/-- A summary record of 1024 bytes. -/
def encRecord (le : Bool) (next prev : Nat) (es : List Entry) : Bytes :=
  recordBody le next prev es ++ List.replicate (1024 - (recordBody le next prev es).length) 0

/-- Records one after the other from record number `r` on; each summary record is followed by
filler (its name record and array data), a whole number of records. -/
def encRecords (le : Bool) : Nat → Nat → List (List Entry × Bytes) → Bytes
  | _, _, [] => []
  | r, prev, (es, filler) :: rest =>
    let next := if rest = [] then 0 else r + 1 + filler.length / 1024
    encRecord le next prev es ++ filler ++ encRecords le (r + 1 + filler.length / 1024) r rest

/-- A whole file. -/
def encFile (le : Bool) (loc : Bytes) (nd ni : Nat) (name tail : Bytes)
    (groups : List (List Entry × Bytes)) : Bytes :=
  header le loc nd ni (if groups = [] then 0 else 2) name tail ++ encRecords le 2 0 groups

/-- What the SPK meaning of a summary with ND = 2, NI = 6 is. -/
structure SpkFields where
  startEt : BitVec 64
  endEt : BitVec 64
  target : BitVec 32
  center : BitVec 32
  frame : BitVec 32
  dataType : BitVec 32
  startWord : BitVec 32
  endWord : BitVec 32

def SpkFields.entry (s : SpkFields) : Entry :=
  ⟨[s.startEt, s.endEt], [s.target, s.center, s.frame, s.dataType, s.startWord, s.endWord]⟩

/-- Word `w` (counted from one) of a little-endian file has the bit pattern `x`. -/
def WordAt (data : Bytes) (w : Nat) (x : BitVec 64) : Prop :=
  1 ≤ w ∧ At data ((w - 1) * 8) (f64b true x)

/-- The layout of an SPK Type 2 or 3 segment (NAIF "SPK Required Reading"): the records, then
INIT, INTLEN, RSIZE and N in the last four words. -/
structure ChebLayout (data : Bytes) (start stop : Nat) (dataType : Int) (init intlen : ℚ)
    (rsize ncoeff nrec : Nat) (records : List (BitVec 64)) : Prop where
  start_pos : 1 ≤ start
  typed : (dataType = 2 ∧ rsize = 2 + 3 * ncoeff) ∨ (dataType = 3 ∧ rsize = 2 + 6 * ncoeff)
  rsize_range : 5 ≤ rsize ∧ rsize ≤ 200
  nrec_range : 1 ≤ nrec ∧ nrec ≤ 10000000
  intlen_pos : 0 < intlen
  count : records.length = nrec * rsize
  extent : start + nrec * rsize + 3 ≤ stop
  inFile : stop * 8 ≤ data.length
  words : ∀ i (h : i < records.length), WordAt data (start + i) records[i]
  trailer : ∃ wi wl wr wn, WordAt data (stop - 3) wi ∧ WordAt data (stop - 2) wl ∧
    WordAt data (stop - 1) wr ∧ WordAt data stop wn ∧
    fVal wi = some init ∧ fVal wl = some intlen ∧ fVal wr = some (rsize : ℚ) ∧
    fVal wn = some (nrec : ℚ)

end Verif.Daf.Spec
