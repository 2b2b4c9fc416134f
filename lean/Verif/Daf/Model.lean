import Verif.Bits.Model

/-
Model of `/repo/src/formats/spice/daf.rs`, `/repo/src/formats/spice/spk.rs` and of the segment
readers of `/repo/src/formats/spice/segment.rs` (382-588). Error texts are dropped. `ck` tells
whether the build checks integer overflow (debug) or wraps (release). The `while rec > 0` loop
carries fuel; an outer `none` means that it has not finished. Offsets inside a record cannot
overflow, because a Rust slice has at most 2^63 - 1 bytes, and are plain naturals.
-/
namespace Verif.Daf
open Verif.Text Verif.Bits

/-- The error cases, in the order of the code. -/
inductive Err where
  | tooSmall | notDaf | endianness | notSpk | recordPastEof | summaryPastEof
  | badWords | wordOutside | notFinite | badIntlen | badRecordCount | badRsize | unsupported
  | tooShort | badInit | overflow | window | notIncreasing | badDegree | noSegments | notFound
deriving DecidableEq, Repr

/-- daf.rs 309-317: `read_i32_le`, `read_i32_be`. -/
def readI32 (le : Bool) (data : Bytes) (off : Nat) : Res Err (BitVec 32) :=
  .orPanic ((sliceB data off 4).map (fun b => BitVec.ofNat 32 (bytesNat le b)))

/-- daf.rs 319-327: `read_f64_le`, `read_f64_be`. -/
def readF64 (le : Bool) (data : Bytes) (off : Nat) : Res Err (BitVec 64) :=
  .orPanic ((sliceB data off 8).map (fun b => BitVec.ofNat 64 (bytesNat le b)))

/-- daf.rs 111-112, 222-223: the locator test. `other` stands for the outcome on locators with
non-ASCII bytes, where the two parsers differ (strict and lossy UTF-8 decoding). -/
def locatorOk (other : Bytes → Bool) (b : Bytes) : Bool :=
  if b.all (· < 128) then
    ("DAF".toList).isPrefixOf (trim (b.map (fun x => Char.ofNat x.toNat)))
  else other b

/-- `1 ..= 100`. -/
def plausible (x : BitVec 32) : Bool := decide (0 < x.toInt ∧ x.toInt ≤ 100)

/-- daf.rs 119-133, 230-244: byte order, ND and NI. -/
def readShape (data : Bytes) : Res Err (Bool × Nat × Nat) := do
  let ndLe ← readI32 true data 8
  let niLe ← readI32 true data 12
  let ndBe ← readI32 false data 8
  let niBe ← readI32 false data 12
  if plausible ndLe && plausible niLe then .ok (true, ndLe.toInt.toNat, niLe.toInt.toNat)
  else if plausible ndBe && plausible niBe then .ok (false, ndBe.toInt.toNat, niBe.toInt.toNat)
  else .err .endianness

/-- daf.rs 53-59. -/
structure RawSummary where
  doubles : List (BitVec 64)
  integers : List (BitVec 32)
deriving DecidableEq, Repr

/-- `for j in 0..n { v.push(read(base + j * size)) }` from index `j` on. -/
def readMany {α : Type} (read : Nat → Res Err α) (base size : Nat) : Nat → Nat → Res Err (List α)
  | 0, _ => .ok []
  | n + 1, j => do
    let x ← read (base + j * size)
    let xs ← readMany read base size n (j + 1)
    .ok (x :: xs)

/-- daf.rs 273-282: one raw summary at byte offset `off`. -/
def readRaw (le : Bool) (data : Bytes) (nd ni off : Nat) : Res Err RawSummary := do
  let doubles ← readMany (readF64 le data) off 8 nd 0
  let integers ← readMany (readI32 le data) (off + nd * 8) 4 ni 0
  .ok ⟨doubles, integers⟩

/-- daf.rs 27-46. Word numbers are `usize`. -/
structure Summary where
  startEt : BitVec 64
  endEt : BitVec 64
  target : Int
  center : Int
  frame : Int
  dataType : Int
  startWord : Nat
  endWord : Nat
deriving DecidableEq, Repr

/-- daf.rs 174-194: one SPK summary (ND = 2). -/
def readSpk (le : Bool) (data : Bytes) (nd off : Nat) : Res Err Summary := do
  let s ← readF64 le data off
  let e ← readF64 le data (off + 8)
  let io := off + nd * 8
  let target ← readI32 le data io
  let center ← readI32 le data (io + 4)
  let frame ← readI32 le data (io + 8)
  let dtype ← readI32 le data (io + 12)
  let sw ← readI32 le data (io + 16)
  let ew ← readI32 le data (io + 20)
  .ok ⟨s, e, target.toInt, center.toInt, frame.toInt, dtype.toInt, iToUsize sw.toInt,
    iToUsize ew.toInt⟩

/-- daf.rs 165-195, 264-283: the summaries of one record, from index `i` on; `n` are left. -/
def readSummaries {α : Type} (read : Nat → Res Err α) (len recOff ss : Nat) :
    Nat → Nat → Res Err (List α)
  | 0, _ => .ok []
  | n + 1, i =>
    let off := recOff + 24 + i * ss * 8
    if off + ss * 8 > len then .err .summaryPastEof
    else do
      let x ← read off
      let xs ← readSummaries read len recOff ss n (i + 1)
      .ok (x :: xs)

/-- daf.rs 153-197, 254-284: one pass of the record loop: the next record number and the summaries
of this one. -/
def readRecord {α : Type} (ck le : Bool) (read : Nat → Res Err α) (data : Bytes) (ss rec : Nat) :
    Res Err (Nat × List α) := do
  let recOff ← mulU ck (rec - 1) 1024
  let recEnd ← addU ck recOff 1024
  if recEnd > data.length then .err .recordPastEof
  else do
    let nextW ← readF64 le data recOff
    let nsumW ← readF64 le data (recOff + 16)
    let xs ← readSummaries read data.length recOff ss (fToUsize nsumW) 0
    .ok (iToUsize (fToI64 nextW), xs)

/-- daf.rs 152-198, 253-285: the record loop. -/
def recordLoop {α : Type} (ck le : Bool) (read : Nat → Res Err α) (data : Bytes) (ss : Nat) :
    Nat → Nat → List α → Option (Res Err (List α))
  | 0, _, _ => none
  | n + 1, rec, acc =>
    if rec = 0 then some (.ok acc)
    else
      match readRecord ck le read data ss rec with
      | .ok (next, xs) => recordLoop ck le read data ss n next (acc ++ xs)
      | .err e => some (.err e)
      | .panic => some .panic

/-- daf.rs 147, 249: `nd + ni.div_ceil(2)`. -/
def summarySize (nd ni : Nat) : Nat := nd + (ni + 1) / 2

/-- daf.rs 212-294: `DafRaw::parse` (ND, NI and the raw summaries). -/
def parseRaw (ck : Bool) (other : Bytes → Bool) (fuel : Nat) (data : Bytes) :
    Option (Res Err (Nat × Nat × List RawSummary)) :=
  if data.length < 1024 then some (.err .tooSmall)
  else if !locatorOk other (data.take 8) then some (.err .notDaf)
  else
    match readShape data with
    | .err e => some (.err e)
    | .panic => some .panic
    | .ok (le, nd, ni) =>
      match readI32 le data 76 with
      | .err e => some (.err e)
      | .panic => some .panic
      | .ok fw =>
        (recordLoop ck le (readRaw le data nd ni) data (summarySize nd ni) fuel
          (iToUsize fw.toInt) []).map (fun r => r.bind (fun l => .ok (nd, ni, l)))

/-- daf.rs 101-201: `Daf::parse` (the summaries; ND = 2 and NI = 6 are enforced). -/
def parseSpk (ck : Bool) (other : Bytes → Bool) (fuel : Nat) (data : Bytes) :
    Option (Res Err (List Summary)) :=
  if data.length < 1024 then some (.err .tooSmall)
  else if !locatorOk other (data.take 8) then some (.err .notDaf)
  else
    match readShape data with
    | .err e => some (.err e)
    | .panic => some .panic
    | .ok (le, nd, ni) =>
      match readI32 le data 76 with
      | .err e => some (.err e)
      | .panic => some .panic
      | .ok fw =>
        if nd ≠ 2 ∨ ni ≠ 6 then some (.err .notSpk)
        else recordLoop ck le (readSpk le data nd) data (summarySize nd ni) fuel
          (iToUsize fw.toInt) []

/-- daf.rs 61-71: `start_word`, `end_word` of a raw summary; a summary with one integer has no
`len() - 2` entry. -/
def RawSummary.startWord (ck : Bool) (s : RawSummary) : Res Err Nat := do
  let i ← subU ck s.integers.length 2
  let w ← Res.orPanic (s.integers[i]?)
  .ok (iToUsize w.toInt)

def RawSummary.endWord (ck : Bool) (s : RawSummary) : Res Err Nat := do
  let i ← subU ck s.integers.length 1
  let w ← Res.orPanic (s.integers[i]?)
  .ok (iToUsize w.toInt)

/-- daf.rs 205-209, 298-301: `read_f64_at_word`, little-endian whatever the byte order of the file.
Word 0 and words past the end panic; words from 2^61 on, whose byte offset overflows, are treated
as past the end. -/
def readWord (data : Bytes) (word : Nat) : Res Err (BitVec 64) :=
  if word = 0 then .panic else readF64 true data ((word - 1) * 8)

/-! ### spk.rs -/

/-- spk.rs 83-96. -/
def ensureWord (data : Bytes) (word : Nat) : Res Err Unit :=
  if word = 0 then .err .wordOutside
  else if word > data.length / 8 then .err .wordOutside
  else .ok ()

/-- spk.rs 98-112: the word and its finite value. -/
def readTrailer (data : Bytes) (word : Nat) : Res Err (BitVec 64 × ℚ) := do
  ensureWord data word
  let w ← readWord data word
  match fVal w with
  | some q => .ok (w, q)
  | none => .err .notFinite

/-- spk.rs 15-30. -/
structure SegmentData where
  dataType : Int
  init : ℚ
  intlen : ℚ
  rsize : Nat
  ncoeff : Nat
  nRecords : Nat
  records : List (BitVec 64)

/-- `q.fract() != 0.0`. -/
def hasFract (q : ℚ) : Bool := decide (q ≠ ⌊q⌋)

/-- spk.rs 216-222: the coefficient words, `n` left from index `i` on. -/
def readChecked (data : Bytes) (start : Nat) : Nat → Nat → Res Err (List (BitVec 64))
  | 0, _ => .ok []
  | n + 1, i => do
    ensureWord data (start + i)
    let w ← readWord data (start + i)
    let ws ← readChecked data start n (i + 1)
    .ok (w :: ws)

/-- spk.rs 178-186. -/
def coeffAxes (dataType : Int) : Option Nat :=
  if dataType = 2 then some 3 else if dataType = 3 then some 6 else none

/-- spk.rs 195-232: extent checks and the coefficient table, after the trailer has been decoded. -/
def readTable (data : Bytes) (s : Summary) (init intlen : ℚ) (nrec rsize ncoeff : Nat) :
    Res Err SegmentData :=
  let total := nrec * rsize
  if 2 ^ 64 ≤ total then .err .overflow
  else if 2 ^ 64 ≤ s.startWord + total then .err .overflow
  else if s.startWord + total = 0 then .err .overflow
  else
    let dataEnd := s.startWord + total - 1
    if dataEnd > s.endWord - 4 then .err .window
    else do
      ensureWord data dataEnd
      let records ← readChecked data s.startWord total 0
      .ok ⟨s.dataType, init, intlen, rsize, ncoeff, nrec, records⟩

/-- spk.rs 148-193: validation of the trailer values. -/
def checkTrailer (data : Bytes) (s : Summary) (nrecW : BitVec 64 × ℚ) (rsizeW : BitVec 64 × ℚ)
    (intlen init : ℚ) : Res Err SegmentData :=
  if intlen ≤ 0 then .err .badIntlen
  else if hasFract nrecW.2 ∨ nrecW.2 < 0 then .err .badRecordCount
  else
    let nrec := fToUsize nrecW.1
    if nrec = 0 ∨ nrec > 10000000 then .err .badRecordCount
    else if hasFract rsizeW.2 then .err .badRsize
    else
      let rsize := fToUsize rsizeW.1
      if ¬ (5 ≤ rsize ∧ rsize ≤ 200) then .err .badRsize
      else
        match coeffAxes s.dataType with
        | none => .err .unsupported
        | some axes =>
          let ncoeff := (rsize - 2) / axes
          if 2 + axes * ncoeff ≠ rsize then .err .badRsize
          else readTable data s init intlen nrec rsize ncoeff

/-- spk.rs 115-233. -/
def readSegment (ck : Bool) (data : Bytes) (s : Summary) : Res Err SegmentData :=
  if s.startWord = 0 ∨ s.endWord = 0 then .err .badWords
  else if s.endWord < s.startWord then .err .badWords
  else do
    let lim ← addU ck s.startWord 3
    if s.endWord < lim then .err .badWords
    else do
      ensureWord data s.endWord
      -- `end - 1`, `end - 2`, `end - 3`
      let e1 ← subU ck s.endWord 1
      let e2 ← subU ck s.endWord 2
      let e3 ← subU ck s.endWord 3
      ensureWord data e1
      ensureWord data e2
      ensureWord data e3
      let nrec ← readTrailer data s.endWord
      let rsize ← readTrailer data e1
      let intlen ← readTrailer data e2
      let init ← readTrailer data e3
      checkTrailer data s nrec rsize intlen.2 init.2

/-- spk.rs 34-47. -/
structure IndexedSegment where
  target : Int
  center : Int
  frame : Int
  startEt : BitVec 64
  endEt : BitVec 64
  data : SegmentData

/-- spk.rs 252-264. -/
def indexLoop (ck : Bool) (data : Bytes) : List Summary → Res Err (List IndexedSegment)
  | [] => .ok []
  | s :: rest =>
    if s.frame ≠ 1 ∨ (s.dataType ≠ 2 ∧ s.dataType ≠ 3) then indexLoop ck data rest
    else do
      let d ← readSegment ck data s
      let ds ← indexLoop ck data rest
      .ok (⟨s.target, s.center, s.frame, s.startEt, s.endEt, d⟩ :: ds)

/-- spk.rs 248-272. -/
def parseIndexed (ck : Bool) (other : Bytes → Bool) (fuel : Nat) (data : Bytes) :
    Option (Res Err (List IndexedSegment)) :=
  (parseSpk ck other fuel data).map (fun r => r.bind (fun sums =>
    (indexLoop ck data sums).bind (fun l => if l = [] then .err .noSegments else .ok l)))

/-! ### segment.rs -/

/-- segment.rs 118-133 (`components` is 3 or 6). -/
structure ChebSegment where
  init : ℚ
  intlen : ℚ
  rsize : Nat
  ncoeff : Nat
  nRecords : Nat
  components : Nat
  records : List (BitVec 64)

/-- segment.rs 467-470: words read without a bounds check. -/
def readUnchecked (data : Bytes) (start : Nat) : Nat → Nat → Res Err (List (BitVec 64))
  | 0, _ => .ok []
  | n + 1, i => do
    let w ← readWord data (start + i)
    let ws ← readUnchecked data start n (i + 1)
    .ok (w :: ws)

/-- segment.rs 404-481. -/
def readChebyshev (ck : Bool) (data : Bytes) (s : Summary) (components : Nat) :
    Res Err ChebSegment :=
  let e := s.endWord
  if e < 4 then .err .tooShort
  else do
    let nrecW ← readWord data e
    let rsizeW ← readWord data (e - 1)
    let intlenW ← readWord data (e - 2)
    let initW ← readWord data (e - 3)
    let nrec := fToUsize nrecW
    let rsize := fToUsize rsizeW
    if ¬ (5 ≤ rsize ∧ rsize ≤ 4096) then .err .badRsize
    else if (rsize - 2) % components ≠ 0 then .err .badRsize
    else if nrec = 0 ∨ nrec > 10000000 then .err .badRecordCount
    else
      match fVal intlenW, fVal initW with
      | none, _ => .err .badIntlen
      | some intlen, initV =>
        if ¬ 0 < intlen then .err .badIntlen
        else
          match initV with
          | none => .err .badInit
          | some init => do
            let total := nrec * rsize
            let sum ← addU ck s.startWord total
            let last ← subU ck sum 1
            if last > s.endWord then .err .window
            else do
              let records ← readUnchecked data s.startWord total 0
              .ok ⟨init, intlen, rsize, (rsize - 2) / components, nrec, components, records⟩

/-- segment.rs 206-219. -/
structure DiscreteSegment where
  dataType : Int
  size : Nat
  nRecords : Nat
  states : List ℚ
  epochs : List ℚ
  directory : List ℚ

/-- All words finite: their values. -/
def finiteAll : List (BitVec 64) → Option (List ℚ)
  | [] => some []
  | w :: ws => match fVal w, finiteAll ws with
    | some q, some qs => some (q :: qs)
    | _, _ => none

/-- segment.rs 554-578. -/
def interpolationSize (dataType : Int) (descriptor nrec : Nat) : Option Nat :=
  if dataType = 9 then
    if descriptor = 0 ∨ descriptor + 1 > nrec ∨ descriptor > 31 then none else some descriptor
  else
    if descriptor + 1 < 2 ∨ descriptor + 1 > nrec ∨ descriptor + 1 > 16 then none
    else some (descriptor + 1)

/-- segment.rs 509-588: decoding of the words of a segment. -/
def decodeDiscrete (ck : Bool) (words : List (BitVec 64)) (dataType : Int) : Res Err DiscreteSegment :=
  match fVal (words.getD (words.length - 1) 0) with
  | none => .err .badRecordCount
  | some nrecQ =>
    if nrecQ < 1 then .err .badRecordCount
    else
      match fVal (words.getD (words.length - 2) 0) with
      | none => .err .badDegree
      | some descQ =>
        if descQ < 0 then .err .badDegree
        else
          let nrec := fToUsize (words.getD (words.length - 1) 0)
          let desc := fToUsize (words.getD (words.length - 2) 0)
          if 2 ^ 64 ≤ nrec * 6 then .err .overflow
          else if 2 ^ 64 ≤ nrec * 7 + 2 then
            -- the sum overflows: panic with checks, else a wrapped bound followed by a slice panic
            if ck then .panic
            else if (nrec * 7 + 2) % 2 ^ 64 > words.length then .err .tooShort else .panic
          else if nrec * 7 + 2 > words.length then .err .tooShort
          else
            let states := words.take (nrec * 6)
            let epochs := (words.drop (nrec * 6)).take nrec
            let directory := (words.drop (nrec * 7)).take (words.length - 2 - nrec * 7)
            match finiteAll states, finiteAll epochs, finiteAll directory with
            | some st, some ep, some dir =>
              if ¬ (ep.IsChain (· < ·)) then .err .notIncreasing
              else if desc + 1 ≥ 2 ^ 64 then (if ck then .panic else .err .badDegree)
              else
                match interpolationSize dataType desc nrec with
                | none => .err .badDegree
                | some k => .ok ⟨dataType, k, nrec, st, ep, dir⟩
            | _, _, _ => .err .notFinite

/-- segment.rs 483-588. -/
def readDiscrete (ck : Bool) (data : Bytes) (s : Summary) (dataType : Int) : Res Err DiscreteSegment :=
  if s.endWord < s.startWord then .err .badWords
  else if 2 ^ 64 ≤ s.endWord - s.startWord + 1 then .err .badWords
  else
    let n := s.endWord - s.startWord + 1
    if n < 9 then .err .tooShort
    else do
      let words ← readUnchecked data s.startWord n 0
      decodeDiscrete ck words dataType

end Verif.Daf
