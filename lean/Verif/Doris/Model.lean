import Verif.Rinex.Model
import Mathlib.Algebra.Order.Floor.Ring
import Mathlib.Data.Rat.Floor

/-
Model of src/formats/rinex/doris.rs (with the feature `doris`) and of the text side-car of src/formats/vlbi/vgosdb.rs.
Failures of the byte source and invalid UTF-8 are left out; `f64` arithmetic is exact; overflow of an `i32` is a panic (debug build).
-/
namespace Verif.Doris
open Verif.Text Verif.Sp3

/-- doris.rs 34-47. -/
structure Header where
  version : Str
  program : Str
  agency : Str
  marker : Str
  antenna : Str
  receiver : Str
deriving DecidableEq

/-- doris.rs 55-62. -/
structure Record where
  mjd : F64
  sat : Str
  raw : Str
deriving DecidableEq

/-- doris.rs 66-74. -/
structure File where
  header : Header
  records : List Record
  unsupported : Nat
deriving DecidableEq

/-- doris.rs 83-86: the file so far, whether the header goes on, the epoch. `current_sat` is never set (121-134). -/
structure St where
  out : File
  inHeader : Bool
  epoch : Option F64

/-- doris.rs 91: `trim_end_matches(['\n', '\r'])`. -/
def chop (l : Str) : Str := (l.reverse.dropWhile (fun c => c == '\n' || c == '\r')).reverse

/-- doris.rs 157-169: `date_to_mjd`; `none`: overflow of `y - 1`. -/
def dateToMjd (y : Int) (mo d h mi : Nat) (s : F64) : Option F64 :=
  if mo ≤ 2 ∧ y = -2 ^ 31 then none
  else
    let yy : ℚ := if mo ≤ 2 then (y - 1 : Int) else y
    let mm : ℚ := if mo ≤ 2 then (mo + 12 : Nat) else mo
    let a : ℚ := (⌊yy / 100⌋ : Int)
    let b : ℚ := 2 - a + (⌊a / 4⌋ : Int)
    let days : ℚ := (⌊(36525 / 100) * (yy + 4716)⌋ : Int) + (⌊(306001 / 10000) * (mm + 1)⌋ : Int) + d + b - 15245 / 10
    some (match s with
      | .num q => .num (days + (h + mi / 60 + q / 3600) / 24 - 24000005 / 10)
      | .inf n => .inf n
      | .nan => .nan)

/-- doris.rs 119-124: a field that is not a number counts as zero. -/
def intOr0 (w : Str) : Int := (i32 w).getD 0
def natOr0 (w : Str) : Nat := (u32 w).getD 0
def numOr0 (w : Str) : F64 := (parseFloat w).getD (.num 0)

/-- doris.rs 96-109. -/
def headerLine (st : St) (l : Str) : Option St :=
  (takeB l 60).bind fun data =>
  (dropB l 60).bind fun rest =>
  let label := trim rest
  let hd := st.out.header
  if label = "RINEX VERSION / TYPE".toList then (takeB data 9).map fun v => { st with out.header.version := trim v }
  else if label = "PGM / RUN BY / DATE".toList then
    (takeB data 20).bind fun p => (slice data 20 40).map fun a => { st with out.header := { hd with program := trim p, agency := trim a } }
  else if label = "MARKER NAME".toList then some { st with out.header.marker := trim data }
  else if label = "ANT # / TYPE".toList then (dropB data 20).map fun v => { st with out.header.antenna := trim v }
  else if label = "REC # / TYPE / VERS".toList then (slice data 20 40).map fun v => { st with out.header.receiver := trim v }
  else if label = "END OF HEADER".toList then some { st with inHeader := false }
  else some st

/-- doris.rs 117-127. -/
def epochLine (st : St) (rest : Str) : Option St :=
  match words rest with
  | y :: mo :: d :: h :: mi :: s :: _ => (dateToMjd (intOr0 y) (natOr0 mo) (natOr0 d) (natOr0 h) (natOr0 mi) (numOr0 s)).map fun t => { st with epoch := some t }
  | _ => some st

/-- doris.rs 130-151, with `current_sat` being `None`. -/
def dataLine (st : St) (l : Str) : Option St :=
  if 3 ≤ blen l ∧ l.head? = some 'D' then
    (takeB l 3).bind fun sat =>
    match st.epoch with
    | none => some { st with out.unsupported := st.out.unsupported + 1 }
    | some t =>
      (if 3 < blen l then (dropB l 3).map trim else some []).map fun raw =>
      { st with
        out.unsupported := if raw = [] then st.out.unsupported + 1 else st.out.unsupported
        out.records := st.out.records ++ [⟨t, sat, raw⟩] }
  else some { st with out.unsupported := st.out.unsupported + 1 }

/-- doris.rs 112-151. -/
def bodyLine (st : St) : Str → Option St
  | [] => some st
  | c :: rest => if c = '>' then epochLine st rest else dataLine st (c :: rest)

/-- doris.rs 91-151. -/
def dorisLine (st : St) (raw : Str) : Option St :=
  let l := chop raw
  if st.inHeader then (if blen l < 61 then some st else headerLine st l) else bodyLine st l

def dorisLoop : St → List Str → Option St
  | st, [] => some st
  | st, l :: ls => (dorisLine st l).bind fun st' => dorisLoop st' ls

def start : St := ⟨⟨⟨[], [], [], [], [], []⟩, [], 0⟩, true, none⟩

/-- doris.rs 80-154: `none` is a panic. -/
def parseDoris (text : Str) : Option File := (dorisLoop start (rawLines text)).map (·.out)

/-! ### The vgosDB side-car -/

/-- vgosdb.rs 33-40. -/
structure Vgos where
  session : Str
  start : Str
  stations : List Str
deriving DecidableEq

/-- vgosdb.rs 104 and 116-118. -/
inductive VErr where
  | noEquals (line : Nat)
  | unknown (line : Nat) (key : Str)
deriving DecidableEq

/-- vgosdb.rs 98-120. -/
def vgosLine (no : Nat) (o : Vgos) (raw : Str) : Res VErr Vgos :=
  let l := trim raw
  if l = [] ∨ l.head? = some '#' then .ok o
  else
    match find1 '=' l with
    | none => .err (.noEquals no)
    | some (k, v) =>
      if trim k = "session_code".toList then .ok { o with session := trim v }
      else if trim k = "start_epoch".toList then .ok { o with start := trim v }
      else if trim k = "stations".toList then .ok { o with stations := ((splitChar ',' v).map trim).filter (fun s => s ≠ []) }
      else .err (.unknown no (trim k))

def vgosLoop : Nat → Vgos → List Str → Res VErr Vgos
  | _, o, [] => .ok o
  | no, o, l :: ls => (vgosLine (no + 1) o l).bind fun o' => vgosLoop (no + 1) o' ls

/-- vgosdb.rs 88-123. -/
def readVgos (text : Str) : Res VErr Vgos := vgosLoop 0 ⟨[], [], []⟩ (rawLines text)

end Verif.Doris
