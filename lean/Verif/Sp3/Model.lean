import Verif.Text.Lines

/-
Model of src/formats/igs/sp3.rs: the batch reader, the streaming reader and the writer of SP3 files.
The input is a sequence of raw lines as `BufRead::read_line` returns them, after which the reader is at the end
or fails (I/O error, or text that is not UTF-8). The external crates chrono and tempoch are the parameters
`Env`. `f64` values are rationals, infinities or NaN; arithmetic and formatting are exact. The texts of error
messages are replaced by short keys.
-/
namespace Verif.Sp3
open Verif.Text

/-- sp3.rs 60-75 (`Sp3Error`). -/
inductive Err where
  | io
  | fields (line : Nat)
  | bad (line : Nat) (what : Str)
  | date (line : Nat)
  | utc (line : Nat)
  | beforeEpoch (line : Nat)
  | short (line : Nat)
deriving DecidableEq, Repr

abbrev R := Res Err

/-- A chrono date and time (`NaiveDateTime`). -/
structure Civil where
  year : Int
  month : Nat
  day : Nat
  hour : Nat
  minute : Nat
  second : Nat
  nano : Nat
deriving DecidableEq

/-- The external functions: `NaiveDate::from_ymd_opt` succeeds, `Time::<UTC>::try_from_chrono`,
`Time::try_to_chrono`. -/
structure Env (T : Type) where
  dateOk : Int → Nat → Nat → Bool
  ofChrono : Civil → Option T
  toChrono : T → Option Civil

/-- sp3.rs 77-90. -/
structure Pos where
  sat : Str
  x : F64
  y : F64
  z : F64
  clock : F64
deriving DecidableEq

/-- sp3.rs 92-99. -/
structure Epoch (T : Type) where
  time : T
  positions : List Pos

/-- sp3.rs 101-108. -/
structure Record (T : Type) where
  header : List Str
  epochs : List (Epoch T)

/-- `x as u32`: towards zero, saturating, NaN to zero. -/
def asU32 : F64 → Nat
  | .num q => min ⌊q⌋.toNat (2 ^ 32 - 1)
  | .inf false => 2 ^ 32 - 1
  | .inf true => 0
  | .nan => 0

/-- `((second - second_int as f64) * 1e9).round() as u32` (line 120). -/
def nanosOf (second : F64) (whole : Nat) : Nat :=
  match second with
  | .num q => min (roundHalfUp ((q - whole) * 10 ^ 9)) (2 ^ 32 - 1)
  | other => asU32 other

/-- `NaiveDate::and_hms_nano_opt` succeeds (chrono 0.4): leap seconds are second 59 with more than a billion
nanoseconds. -/
def timeOk (hour minute second nano : Nat) : Bool :=
  decide (hour < 24) && decide (minute < 60) && decide (second < 60) && (decide (nano < 10 ^ 9) || decide (second = 59)) && decide (nano < 2 * 10 ^ 9)

variable {T : Type}

/-- sp3.rs 110-132. -/
def civilToUtc (env : Env T) (year : Int) (month day hour minute : Nat) (second : F64) (line : Nat) : R T :=
  let whole := asU32 second
  let nanos := nanosOf second whole
  if env.dateOk year month day && timeOk hour minute whole nanos then
    Res.ofOption (.utc line) (env.ofChrono ⟨year, month, day, hour, minute, whole, nanos⟩)
  else .err (.date line)

/-- `read_line` strips nothing; lines 151, 355, 400: `trim_end_matches(['\r', '\n'])`. -/
def trimEol (s : Str) : Str := (s.reverse.dropWhile (fun c => decide (c = '\r' ∨ c = '\n'))).reverse

/-- `BufRead::read_line` repeated: each line with its line feed; `cur` is the line so far, reversed. -/
def rawLinesGo : Str → Str → List Str
  | [], cur => if cur = [] then [] else [cur.reverse]
  | c :: t, cur => if c = '\n' then (c :: cur).reverse :: rawLinesGo t [] else rawLinesGo t (c :: cur)

def rawLines (text : Str) : List Str := rawLinesGo text []

/-- The input: raw lines, then the end or a failure. -/
structure Src where
  lines : List Str
  fails : Bool

/-- sp3.rs 243-252. -/
def field {α : Type} (parse : Str → Option α) (line : Nat) (what : String) (raw : Str) : R α :=
  Res.ofOption (.bad line what.toList) (parse raw)

def u32 : Str → Option Nat := parseUInt (2 ^ 32 - 1)
def i32 : Str → Option Int := parseInt (2 ^ 31 - 1)

/-! ### Batch reader -/

/-- sp3.rs 172-194. -/
def batchEpoch (env : Env T) (line : Str) (no : Nat) : R (Epoch T) :=
  match words ((stripPrefix ['*'] line).getD line) with
  | y :: mo :: d :: h :: mi :: s :: _ =>
    (field i32 no "year" y).bind (fun y => (field u32 no "month" mo).bind (fun mo => (field u32 no "day" d).bind (fun d =>
    (field u32 no "hour" h).bind (fun h => (field u32 no "minute" mi).bind (fun mi => (field parseFloat no "second" s).bind (fun s =>
    (civilToUtc env y mo d h mi s no).bind (fun t => .ok ⟨t, []⟩)))))))
  | _ => .err (.fields no)

/-- sp3.rs 203-226. `get(1..4)` is checked, `[4..]` is not. -/
def batchPos (line : Str) (no : Nat) : R Pos :=
  (Res.ofOption (.short no) (slice line 1 4)).bind (fun id =>
  (Res.orPanic (dropB line 4)).bind (fun tail =>
  match words tail with
  | x :: y :: z :: c :: _ =>
    (field parseFloat no "x" x).bind (fun x => (field parseFloat no "y" y).bind (fun y => (field parseFloat no "z" z).bind (fun z =>
    (field parseFloat no "clock" c).bind (fun c => .ok ⟨trim id, x, y, z, c⟩))))
  | _ => .err (.fields no)))

def pushPos (e : Epoch T) (p : Pos) : Epoch T := ⟨e.time, e.positions ++ [p]⟩

/-- sp3.rs 144-240. -/
def batchLoop (env : Env T) (fails : Bool) : List Str → Nat → List Str → List (Epoch T) → Bool → Option (Epoch T) → R (Record T)
  | [], _, header, epochs, _, current => if fails then .err .io else .ok ⟨header, epochs ++ current.toList⟩
  | s :: rest, no, header, epochs, inHeader, current =>
    let line := trimEol s
    if line = "EOF".toList then .ok ⟨header, epochs ++ current.toList⟩
    else if inHeader = true ∧ line.head? ≠ some '*' then batchLoop env fails rest (no + 1) (header ++ [line]) epochs true current
    else if line.head? = some '*' then
      (batchEpoch env line (no + 1)).bind (fun e => batchLoop env fails rest (no + 1) header (epochs ++ current.toList) false (some e))
    else if line.head? = some 'P' then
      match current with
      | none => .err (.beforeEpoch (no + 1))
      | some e => (batchPos line (no + 1)).bind (fun p => batchLoop env fails rest (no + 1) header epochs inHeader (some (pushPos e p)))
    else batchLoop env fails rest (no + 1) header epochs inHeader current

/-- sp3.rs 135-241. -/
def readSp3 (env : Env T) (src : Src) : R (Record T) := batchLoop env src.fails src.lines 0 [] [] true none

/-! ### Streaming reader -/

/-- sp3.rs 332-338; the remaining input stands for `inner`. -/
structure Stream where
  rest : List Str
  fails : Bool
  header : List Str
  pending : Option (Nat × Str)
  lineNo : Nat
  finished : Bool

/-- sp3.rs 348-363: remaining lines, header, pending line, line number. -/
def newLoop (fails : Bool) : List Str → Nat → List Str → R (List Str × List Str × Option (Nat × Str) × Nat)
  | [], no, header => if fails then .err .io else .ok ([], header, none, no)
  | s :: rest, no, header =>
    let line := trimEol s
    if line = "EOF".toList then .ok (rest, header, none, no + 1)
    else if line.head? = some '*' then .ok (rest, header, some (no + 1, line), no + 1)
    else newLoop fails rest (no + 1) (header ++ [line])

/-- sp3.rs 343-371. -/
def newStream (src : Src) : R Stream :=
  (newLoop src.fails src.lines 0 []).bind (fun r => .ok ⟨r.1, src.fails, r.2.1, r.2.2.1, r.2.2.2, false⟩)

/-- sp3.rs 418-442. -/
def parseEpochLine (env : Env T) (line : Str) (no : Nat) : R (Epoch T) :=
  match words ((stripPrefix ['*'] line).getD line) with
  | y :: mo :: d :: h :: mi :: s :: _ =>
    (field i32 no "year" y).bind (fun y => (field u32 no "month" mo).bind (fun mo => (field u32 no "day" d).bind (fun d =>
    (field u32 no "hour" h).bind (fun h => (field u32 no "minute" mi).bind (fun mi => (field parseFloat no "second" s).bind (fun s =>
    (civilToUtc env y mo d h mi s no).bind (fun t => .ok ⟨t, []⟩)))))))
  | _ => .err (.fields no)

/-- sp3.rs 444-469. -/
def parsePLine (line : Str) (no : Nat) : R Pos :=
  (Res.ofOption (.short no) (slice line 1 4)).bind (fun id =>
  (Res.orPanic (dropB line 4)).bind (fun tail =>
  match words tail with
  | x :: y :: z :: c :: _ =>
    (field parseFloat no "x" x).bind (fun x => (field parseFloat no "y" y).bind (fun y => (field parseFloat no "z" z).bind (fun z =>
    (field parseFloat no "clock" c).bind (fun c => .ok ⟨trim id, x, y, z, c⟩))))
  | _ => .err (.fields no)))

/-- sp3.rs 392-414: the epoch (or error) and the stream after the call. -/
def nextLoop (fails : Bool) (header : List Str) : List Str → Nat → Epoch T → R (Option (Epoch T)) × Stream
  | [], no, e => if fails then (.err .io, ⟨[], fails, header, none, no, false⟩) else (.ok (some e), ⟨[], fails, header, none, no, true⟩)
  | s :: rest, no, e =>
    let line := trimEol s
    if line = "EOF".toList then (.ok (some e), ⟨rest, fails, header, none, no + 1, true⟩)
    else if line.head? = some '*' then (.ok (some e), ⟨rest, fails, header, some (no + 1, line), no + 1, false⟩)
    else if line.head? = some 'P' then
      match parsePLine line (no + 1) with
      | .ok p => nextLoop fails header rest (no + 1) (pushPos e p)
      | .err er => (.err er, ⟨rest, fails, header, none, no + 1, false⟩)
      | .panic => (.panic, ⟨rest, fails, header, none, no + 1, false⟩)
    else nextLoop fails header rest (no + 1) e

/-- sp3.rs 379-415. -/
def nextEpoch (env : Env T) (s : Stream) : R (Option (Epoch T)) × Stream :=
  if s.finished then (.ok none, s)
  else match s.pending with
    | none => (.ok none, { s with finished := true })
    | some (no, line) =>
      match parseEpochLine env line no with
      | .ok e => nextLoop s.fails s.header s.rest s.lineNo e
      | .err er => (.err er, { s with pending := none })
      | .panic => (.panic, { s with pending := none })

/-! ### Writer -/

/-- `Display` of a signed integer. -/
def intStr (n : Int) : Str := if n < 0 then '-' :: natStr n.natAbs else natStr n.natAbs

/-- `{:.p}` of an `f64`. -/
def fmtF64 (p : Nat) : F64 → Str
  | .num q => fmtFixed p q
  | .inf neg => (if neg then ['-'] else []) ++ "inf".toList
  | .nan => "NaN".toList

/-- sp3.rs 266-276. -/
def epochLine (c : Civil) : Str :=
  "*  ".toList ++ (padLeft ' ' 4 (intStr c.year) ++ ' ' :: (padLeft ' ' 2 (natStr c.month) ++ ' ' :: (padLeft ' ' 2 (natStr c.day) ++ ' ' ::
    (padLeft ' ' 2 (natStr c.hour) ++ ' ' :: (padLeft ' ' 2 (natStr c.minute) ++ ' ' ::
      padLeft ' ' 11 (fmtFixed 8 ((c.second : ℚ) + (c.nano : ℚ) / 10 ^ 9)))))))

/-- sp3.rs 278-286. -/
def posLine (p : Pos) : Str :=
  'P' :: (padRight 3 p.sat ++ ' ' :: (padLeft ' ' 14 (fmtF64 6 p.x) ++ ' ' :: (padLeft ' ' 14 (fmtF64 6 p.y) ++ ' ' ::
    (padLeft ' ' 14 (fmtF64 6 p.z) ++ ' ' :: padLeft ' ' 14 (fmtF64 6 p.clock)))))

/-- sp3.rs 261-288: the lines of the epochs. -/
def epochLines (env : Env T) : List (Epoch T) → R (List Str)
  | [] => .ok []
  | e :: es =>
    (Res.ofOption (.utc 0) (env.toChrono e.time)).bind (fun c =>
    (epochLines env es).bind (fun ls => .ok (epochLine c :: (e.positions.map posLine ++ ls))))

/-- sp3.rs 256-291. -/
def writeSp3 (env : Env T) (r : Record T) : R Str :=
  (epochLines env r.epochs).bind (fun ls => .ok (unlines (r.header ++ (ls ++ ["EOF".toList]))))

end Verif.Sp3
