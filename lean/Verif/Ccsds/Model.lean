import Verif.Text.Lines

/-
Model of src/formats/ccsds/oem.rs: the text (KVN) writer and reader of orbit ephemeris messages, the calendar
conversion, and XML escaping. The XML reader is modelled in `Verif.OemXml`. Not modelled: the texts of error
messages, input that is not UTF-8. `f64` values are rationals (no rounding); a number read from text may also
be an infinity or NaN.
-/
namespace Verif.Ccsds
open Verif.Text

/-- The error values (oem.rs: `FormatError::Format`), by the place where they arise. Line numbers from 0. -/
inductive Err where
  | noStates
  | keyValue (line : Nat)
  | missingField (name : Str)
  | emptyRow (line : Nat)
  | missing (line : Nat) (what : Str)
  | number (line : Nat) (what : Str)
  | notFinite (line : Nat) (what : Str)
  | epoch (line : Nat)
  | noSegments
deriving DecidableEq, Repr

abbrev R := Res Err

/-- oem.rs 62-73. -/
structure Meta where
  objectId : Str
  objectName : Str
  refFrame : Str
  timeSystem : Str
  centerName : Str
deriving DecidableEq

/-- oem.rs 40-47, as given to the writer: finite numbers. -/
structure State where
  epoch : ℚ
  x : ℚ
  y : ℚ
  z : ℚ
  vx : ℚ
  vy : ℚ
  vz : ℚ
deriving DecidableEq

/-- oem.rs 40-47, as read: the epoch is not checked for finiteness. -/
structure ReadState where
  epoch : F64
  x : ℚ
  y : ℚ
  z : ℚ
  vx : ℚ
  vy : ℚ
  vz : ℚ
deriving DecidableEq

/-! ### Calendar -/

/-- oem.rs 129, 132-140: year, month and day of a day number. Integer division truncates. -/
def calendar (j : Int) : Int × Int × Int :=
  let a := j + 32044
  let b := (4 * a + 3).tdiv 146097
  let c := a - (146097 * b).tdiv 4
  let d := (4 * c + 3).tdiv 1461
  let e := c - (1461 * d).tdiv 4
  let m := (5 * e + 2).tdiv 153
  (100 * b + d - 4800 + m.tdiv 10, m + 3 - 12 * m.tdiv 10, e - (153 * m + 2).tdiv 5 + 1)

/-- `{:0w}` of a signed integer. -/
def padInt (w : Nat) (n : Int) : Str :=
  if n < 0 then '-' :: padLeft '0' (w - 1) (natStr n.natAbs) else padLeft '0' w (natStr n.natAbs)

/-- `x % y` for non-negative `x` and positive `y`. -/
def fmod (x y : ℚ) : ℚ := x - y * ⌊x / y⌋

/-- oem.rs 128-151. The casts to `u32` and `i32` are exact for the day numbers considered (`Props`). -/
def jdToIso (jd : ℚ) : Str :=
  let j := ⌊jd + 1 / 2⌋
  let frac := jd + 1 / 2 - j
  let (year, month, day) := calendar j
  let total := frac * 86400
  let hours := ⌊total / 3600⌋.toNat % 24
  let mins := ⌊fmod total 3600 / 60⌋.toNat
  let secs := fmod total 60
  padInt 4 year ++ '-' :: (padInt 2 month ++ '-' :: (padInt 2 day ++ 'T' :: (padLeft '0' 2 (natStr hours) ++
    ':' :: (padLeft '0' 2 (natStr mins) ++ ':' :: padLeft '0' 9 (fmtFixed 6 secs)))))

/-- oem.rs 411-418: `jdn as f64 - 0.5 + day_frac`, the date as numbers. -/
def dateNumber (year month day : Int) : Int :=
  let a := (14 - month).tdiv 12
  let yy := year + 4800 - a
  let mm := month + 12 * a - 3
  day + (153 * mm + 2).tdiv 5 + 365 * yy + yy.tdiv 4 - yy.tdiv 100 + yy.tdiv 400 - 32045

/-- Addition of a rational to a possibly not finite number, and division by a positive one. -/
def F64.shift (q d : ℚ) : F64 → F64
  | .num s => .num (q + s / d)
  | other => other

/-- `date_parts.next()?.parse().ok()?` for the first three parts (further parts are ignored). -/
def three {α β γ : Type} (pa : Str → Option α) (pb : Str → Option β) (pc : Str → Option γ) (parts : List Str) :
    Option (α × β × γ) :=
  match parts with
  | a :: b :: c :: _ => (pa a).bind (fun x => (pb b).bind (fun y => (pc c).map (fun z => (x, y, z))))
  | _ => none

/-- oem.rs 399-419. -/
def isoToJd (s : Str) : Option F64 :=
  (find1 'T' s).bind (fun dt =>
    (three (parseInt (2 ^ 31 - 1)) (parseUInt (2 ^ 32 - 1)) (parseUInt (2 ^ 32 - 1)) (splitChar '-' dt.1)).bind (fun ymd =>
      (three (parseUInt (2 ^ 32 - 1)) (parseUInt (2 ^ 32 - 1)) parseFloat (splitChar ':' dt.2)).map (fun hms =>
        F64.shift ((dateNumber ymd.1 ymd.2.1 ymd.2.2 : ℚ) - 1 / 2 + ((hms.1 : ℚ) * 3600 + (hms.2.1 : ℚ) * 60) / 86400) 86400
          hms.2.2)))

/-! ### Writer -/

/-- oem.rs 110-120. -/
def stateLine (s : State) : Str :=
  jdToIso s.epoch ++ ' ' :: (fmtFixed 6 s.x ++ ' ' :: (fmtFixed 6 s.y ++ ' ' :: (fmtFixed 6 s.z ++ ' ' ::
    (fmtFixed 9 s.vx ++ ' ' :: (fmtFixed 9 s.vy ++ ' ' :: fmtFixed 9 s.vz)))))

/-- oem.rs 76-122: the lines written. -/
def writeLines (m : Meta) (states : List State) : R (List Str) :=
  match states with
  | [] => .err .noStates
  | first :: rest =>
    .ok (["CCSDS_OEM_VERS = 3.0".toList, "CREATION_DATE  = 2026-01-01T00:00:00".toList, "ORIGINATOR     = SIDERUST-POD".toList, [],
      "META_START".toList,
      "OBJECT_NAME          = ".toList ++ m.objectName,
      "OBJECT_ID            = ".toList ++ m.objectId,
      "CENTER_NAME          = ".toList ++ m.centerName,
      "REF_FRAME            = ".toList ++ m.refFrame,
      "TIME_SYSTEM          = ".toList ++ m.timeSystem,
      "START_TIME           = ".toList ++ jdToIso first.epoch,
      "STOP_TIME            = ".toList ++ jdToIso ((rest.getLast?).getD first).epoch,
      "META_STOP".toList, []] ++ (first :: rest).map stateLine)

/-- oem.rs 76-122: `writeln!` ends each line with a newline. -/
def writeOem (m : Meta) (states : List State) : R Str :=
  (writeLines m states).bind (fun ls => .ok (unlines ls))

/-! ### Reader -/

/-- oem.rs 347-355. -/
def splitKv (line : Str) (no : Nat) : R (Str × Str) :=
  match find1 '=' line with
  | some (k, v) => .ok (trim k, trim v)
  | none => .err (.keyValue no)

/-- oem.rs 362-378: the next token as a finite number. -/
def nextNum (no : Nat) (what : String) (ts : List Str) : R (ℚ × List Str) :=
  match ts with
  | [] => .err (.missing no what.toList)
  | t :: rest =>
    match parseFloat t with
    | none => .err (.number no what.toList)
    | some (.num q) => .ok (q, rest)
    | some _ => .err (.notFinite no what.toList)

/-- oem.rs 357-393. -/
def parseDataLine (line : Str) (no : Nat) : R ReadState :=
  match words line with
  | [] => .err (.emptyRow no)
  | e :: ts =>
    (nextNum no "X" ts).bind (fun (x, ts) => (nextNum no "Y" ts).bind (fun (y, ts) => (nextNum no "Z" ts).bind (fun (z, ts) =>
    (nextNum no "VX" ts).bind (fun (vx, ts) => (nextNum no "VY" ts).bind (fun (vy, ts) => (nextNum no "VZ" ts).bind (fun (vz, _) =>
      match isoToJd e with
      | none => .err (.epoch no)
      | some jd => .ok ⟨jd, x, y, z, vx, vy, vz⟩))))))

/-- oem.rs 154-160. -/
structure Segment where
  info : Meta
  states : List ReadState
deriving DecidableEq

/-- oem.rs 225-231. -/
structure MetaBuilder where
  objectId : Option Str := none
  objectName : Option Str := none
  refFrame : Option Str := none
  timeSystem : Option Str := none
  centerName : Option Str := none

/-- oem.rs 217-222. -/
inductive Mode where
  | header
  | inMeta (mb : MetaBuilder)
  | data (seg : Segment)
  | skip

/-- oem.rs 212-215, 233: the variables of the loop. -/
structure St where
  version : Option Str := none
  creation : Option Str := none
  originator : Option Str := none
  segments : List Segment := []
  mode : Mode := .header

/-- oem.rs 262-268. -/
def need (o : Option Str) (name : String) : R Str := Res.ofOption (.missingField name.toList) o

/-- oem.rs 269-275. -/
def buildMeta (mb : MetaBuilder) : R Meta :=
  (need mb.objectId "OBJECT_ID").bind (fun a => (need mb.objectName "OBJECT_NAME").bind (fun b =>
  (need mb.refFrame "REF_FRAME").bind (fun c => (need mb.timeSystem "TIME_SYSTEM").bind (fun d =>
  (need mb.centerName "CENTER_NAME").bind (fun e => .ok ⟨a, b, c, d, e⟩)))))

/-- oem.rs 246-250. -/
def headerField (s : St) (k v : Str) : St :=
  if k = "CCSDS_OEM_VERS".toList then { s with version := some v }
  else if k = "CREATION_DATE".toList then { s with creation := some v }
  else if k = "ORIGINATOR".toList then { s with originator := some v }
  else s

/-- oem.rs 284-292. -/
def metaField (mb : MetaBuilder) (k v : Str) : MetaBuilder :=
  if k = "OBJECT_ID".toList then { mb with objectId := some v }
  else if k = "OBJECT_NAME".toList then { mb with objectName := some v }
  else if k = "REF_FRAME".toList then { mb with refFrame := some v }
  else if k = "TIME_SYSTEM".toList then { mb with timeSystem := some v }
  else if k = "CENTER_NAME".toList then { mb with centerName := some v }
  else mb

/-- oem.rs 312-327: the end of a skipped block; the last finished segment is taken up again, leaving an empty
one in its place. -/
def resume (s : St) : St :=
  match s.segments.getLast? with
  | some last => { s with segments := s.segments.dropLast ++ [⟨last.info, []⟩], mode := .data last }
  | none => { s with mode := .header }

/-- oem.rs 239-330 for a line that is trimmed, not empty and not a comment. -/
def stepLine (no : Nat) (s : St) (line : Str) : R St :=
  match s.mode with
  | .header =>
    if line = "META_START".toList then .ok { s with mode := .inMeta {} }
    else (splitKv line no).bind (fun (k, v) => .ok (headerField s k v))
  | .inMeta mb =>
    if line = "META_STOP".toList then (buildMeta mb).bind (fun m => .ok { s with mode := .data ⟨m, []⟩ })
    else (splitKv line no).bind (fun (k, v) => .ok { s with mode := .inMeta (metaField mb k v) })
  | .data seg =>
    if line = "META_START".toList then .ok { s with segments := s.segments ++ [seg], mode := .inMeta {} }
    else if line = "COVARIANCE_START".toList ∨ line = "MAN_START".toList then .ok { s with mode := .skip }
    else (parseDataLine line no).bind (fun st => .ok { s with mode := .data ⟨seg.info, seg.states ++ [st]⟩ })
  | .skip =>
    if line = "COVARIANCE_STOP".toList ∨ line = "MAN_STOP".toList then .ok (resume s) else .ok s

/-- oem.rs 234-238: trimming, empty lines and comments. -/
def step (no : Nat) (s : St) (raw : Str) : R St :=
  let line := trim raw
  if line = [] ∨ "COMMENT".toList.isPrefixOf line = true then .ok s else stepLine no s line

/-- oem.rs 234-330. -/
def loop : Nat → St → List Str → R St
  | _, s, [] => .ok s
  | no, s, raw :: rest => (step no s raw).bind (fun s => loop (no + 1) s rest)

/-- oem.rs 163-174. -/
structure File where
  version : Str
  creation : Str
  originator : Str
  segments : List Segment
deriving DecidableEq

/-- oem.rs 331-344. -/
def finish (s : St) : R File :=
  let segments := match s.mode with
    | .data seg => s.segments ++ [seg]
    | _ => s.segments
  if segments = [] then .err .noSegments
  else .ok ⟨s.version.getD "unknown".toList, s.creation.getD [], s.originator.getD [], segments⟩

/-- oem.rs 207-345 for UTF-8 text. -/
def readOem (text : Str) : R File := (loop 0 {} (lines text)).bind finish

/-! ### XML escaping -/

/-- `str::replace(char, &str)`. -/
def replaceChar (c : Char) (by_ : Str) (s : Str) : Str := s.flatMap (fun x => if x = c then by_ else [x])

/-- oem.rs 530-535. -/
def xmlEscape (s : Str) : Str :=
  replaceChar '"' "&quot;".toList (replaceChar '>' "&gt;".toList (replaceChar '<' "&lt;".toList (replaceChar '&' "&amp;".toList s)))

end Verif.Ccsds
