import Verif.Text.Lines
import Verif.Sp3.Model

/-!
The orbit parameter message and the tracking data message (`src/formats/ccsds/opm.rs`, `tdm.rs`).

Text is a list of characters, the byte source is the lines it yields (`BufRead::lines` behaves like
`str::lines`; input that is not UTF-8 and read errors are not modelled). A `HashMap` is the function it
denotes. `{}` of an `f64` is a parameter of the tracking data writer.
-/
namespace Verif.Kvn
open Verif.Text

/-- The errors: a missing field, a value that is no number, a data line without separator. -/
inductive Err where
  | missing (key : String)
  | number (key : String)
  | separator
  | value
deriving DecidableEq

abbrev R (α : Type) := Res Err α

/-! ### Orbit parameter message -/

/-- opm.rs 107-118. -/
structure OpmMeta where
  objectName : Str
  objectId : Str
  centerName : Str
  refFrame : Str
  timeSystem : Str
deriving DecidableEq

/-- opm.rs 47-54. -/
structure OpmState where
  epoch : Str
  x : F64
  y : F64
  z : F64
  vx : F64
  vy : F64
  vz : F64
deriving DecidableEq

/-- opm.rs 76-89. -/
structure Kepler where
  sma : F64
  ecc : F64
  inc : F64
  node : F64
  peri : F64
  anomaly : F64
deriving DecidableEq

/-- opm.rs 144-151. -/
structure Opm where
  info : OpmMeta
  state : OpmState
  kepler : Option Kepler
deriving DecidableEq

/-- The map of opm.rs 177. -/
abbrev Map := Str → Option Str

/-- `HashMap::insert`. -/
def insert (m : Map) (k v : Str) : Map := fun k' => if k' = k then some v else m k'

/-- opm.rs 179-194: one line. -/
def opmLine (m : Map) (raw : Str) : Map :=
  let line := trim raw
  if line = [] ∨ "COMMENT".toList.isPrefixOf line = true ∨ line = "META_START".toList ∨ line = "META_STOP".toList then m
  else
    match find1 '=' line with
    | some (k, v) => insert m (trim k) (trim v)
    | none => m

/-- opm.rs 196-200 (`get`). -/
def get (m : Map) (k : String) : R Str := Res.ofOption (.missing k) (m k.toList)

/-- opm.rs 201-207 (`getf`). -/
def getf (m : Map) (k : String) : R F64 :=
  (get m k).bind (fun v => Res.ofOption (.number k) (parseFloat v))

/-- opm.rs 225-236. -/
def opmKepler (m : Map) : R (Option Kepler) :=
  if (m "SEMI_MAJOR_AXIS".toList).isSome then
    (getf m "SEMI_MAJOR_AXIS").bind (fun a => (getf m "ECCENTRICITY").bind (fun e => (getf m "INCLINATION").bind (fun i =>
    (getf m "RA_OF_ASC_NODE").bind (fun n => (getf m "ARG_OF_PERICENTER").bind (fun p => (getf m "TRUE_ANOMALY").bind (fun t =>
    .ok (some ⟨a, e, i, n, p, t⟩)))))))
  else .ok none

/-- opm.rs 209-242. -/
def opmBuild (m : Map) : R Opm :=
  (get m "OBJECT_NAME").bind (fun name =>
  (get m "EPOCH").bind (fun epoch =>
  (getf m "X").bind (fun x => (getf m "Y").bind (fun y => (getf m "Z").bind (fun z =>
  (getf m "X_DOT").bind (fun vx => (getf m "Y_DOT").bind (fun vy => (getf m "Z_DOT").bind (fun vz =>
  (opmKepler m).bind (fun k =>
  .ok ⟨⟨name, (m "OBJECT_ID".toList).getD [], (m "CENTER_NAME".toList).getD "EARTH".toList,
      (m "REF_FRAME".toList).getD "EME2000".toList, (m "TIME_SYSTEM".toList).getD "UTC".toList⟩,
    ⟨epoch, x, y, z, vx, vy, vz⟩, k⟩)))))))))

/-- opm.rs 175-243 (`read_opm`). -/
def readOpm (text : Str) : R Opm := opmBuild ((lines text).foldl opmLine (fun _ => none))

/-- `KEY                  = value`: the key padded to 21 columns (opm.rs 280-322). -/
def field (key : String) (v : Str) : Str := padRight 21 key.toList ++ ("= ".toList ++ v)

/-- opm.rs 308-323. -/
def keplerLines (k : Kepler) : List Str :=
  [[], field "SEMI_MAJOR_AXIS" (Sp3.fmtF64 6 k.sma), field "ECCENTRICITY" (Sp3.fmtF64 7 k.ecc),
   field "INCLINATION" (Sp3.fmtF64 4 k.inc), field "RA_OF_ASC_NODE" (Sp3.fmtF64 4 k.node),
   field "ARG_OF_PERICENTER" (Sp3.fmtF64 4 k.peri), field "TRUE_ANOMALY" (Sp3.fmtF64 4 k.anomaly)]

/-- opm.rs 278-307. -/
def stateLines (msg : Opm) : List Str :=
  ["CCSDS_OPM_VERS = 2.0".toList, "META_START".toList, field "OBJECT_NAME" msg.info.objectName,
   field "OBJECT_ID" msg.info.objectId, field "CENTER_NAME" msg.info.centerName, field "REF_FRAME" msg.info.refFrame,
   field "TIME_SYSTEM" msg.info.timeSystem, "META_STOP".toList, [], field "EPOCH" msg.state.epoch,
   field "X" (Sp3.fmtF64 6 msg.state.x), field "Y" (Sp3.fmtF64 6 msg.state.y), field "Z" (Sp3.fmtF64 6 msg.state.z),
   field "X_DOT" (Sp3.fmtF64 6 msg.state.vx), field "Y_DOT" (Sp3.fmtF64 6 msg.state.vy), field "Z_DOT" (Sp3.fmtF64 6 msg.state.vz)]

/-- opm.rs 277-325 (`write_opm`). -/
def writeOpm (msg : Opm) : Str :=
  unlines (stateLines msg ++ (msg.kepler.map keplerLines).getD [])

/-! ### Tracking data message -/

/-- tdm.rs 23-34. -/
inductive Kind where
  | range | doppler | angle1 | angle2
  | other (s : Str)
deriving DecidableEq

/-- tdm.rs 50-57. -/
structure Obs where
  kind : Kind
  epoch : Str
  value : F64
deriving DecidableEq

/-- tdm.rs 74-83. -/
structure TdmMeta where
  participants : List Str
  mode : Str
  path : Str
  timeSystem : Str
deriving DecidableEq

/-- tdm.rs 95-100. -/
structure Tdm where
  infos : List TdmMeta
  obs : List Obs
deriving DecidableEq

/-- tdm.rs 205-212. -/
def newMeta : TdmMeta := ⟨[], [], [], []⟩

/-- tdm.rs 126-130. -/
inductive Mode where
  | outside | inMeta | inData
deriving DecidableEq

structure St where
  mode : Mode
  cur : TdmMeta
  msg : Tdm
deriving DecidableEq

/-- tdm.rs 214-222. -/
def kindOf (kw : Str) : Kind :=
  if kw = "RANGE".toList then .range
  else if kw = "DOPPLER_INSTANTANEOUS".toList ∨ kw = "DOPPLER_INTEGRATED".toList then .doppler
  else if kw = "ANGLE_1".toList then .angle1
  else if kw = "ANGLE_2".toList then .angle2
  else .other kw

/-- tdm.rs 224-232. -/
def keywordOf : Kind → Str
  | .range => "RANGE".toList
  | .doppler => "DOPPLER_INSTANTANEOUS".toList
  | .angle1 => "ANGLE_1".toList
  | .angle2 => "ANGLE_2".toList
  | .other s => s

/-- `str::rfind(" : ")`: text before and after the last occurrence. -/
def rfindSep : Str → Option (Str × Str)
  | [] => none
  | x :: xs =>
    match rfindSep xs with
    | some (a, b) => some (x :: a, b)
    | none => if " : ".toList.isPrefixOf (x :: xs) = true then some ([], (x :: xs).drop 3) else none

/-- tdm.rs 166-177. -/
def metaField (m : TdmMeta) (k v : Str) : TdmMeta :=
  if "PARTICIPANT_".toList.isPrefixOf k = true then { m with participants := m.participants ++ [v] }
  else if k = "MODE".toList then { m with mode := v }
  else if k = "PATH".toList then { m with path := v }
  else if k = "TIME_SYSTEM".toList then { m with timeSystem := v }
  else m

/-- tdm.rs 178-196. -/
def dataField (k v : Str) : R Obs :=
  match rfindSep v with
  | none => .err .separator
  | some (e, s) => (Res.ofOption .value (parseFloat (trim s))).bind (fun x => .ok ⟨kindOf k, trim e, x⟩)

/-- tdm.rs 134-200: one line. -/
def tdmLine (s : St) (raw : Str) : R St :=
  let line := trim raw
  if line = [] ∨ "COMMENT".toList.isPrefixOf line = true ∨ "CCSDS_TDM".toList.isPrefixOf line = true then .ok s
  else if line = "META_START".toList then .ok { s with mode := .inMeta, cur := newMeta }
  else if line = "META_STOP".toList then
    .ok { s with mode := .outside, cur := newMeta, msg := { s.msg with infos := s.msg.infos ++ [s.cur] } }
  else if line = "DATA_START".toList then .ok { s with mode := .inData }
  else if line = "DATA_STOP".toList then .ok { s with mode := .outside }
  else
    match find1 '=' line with
    | none => .ok s
    | some (k, v) =>
      match s.mode with
      | .inMeta => .ok { s with cur := metaField s.cur (trim k) (trim v) }
      | .inData => (dataField (trim k) (trim v)).bind (fun o => .ok { s with msg := { s.msg with obs := s.msg.obs ++ [o] } })
      | .outside => .ok s

def tdmLoop (s : St) : List Str → R St
  | [] => .ok s
  | l :: ls => (tdmLine s l).bind (fun s' => tdmLoop s' ls)

/-- tdm.rs 122-203 (`read_tdm`). -/
def readTdm (text : Str) : R Tdm :=
  (tdmLoop ⟨.outside, newMeta, ⟨[], []⟩⟩ (lines text)).bind (fun s => .ok s.msg)

/-- tdm.rs 272-274. -/
def participantLines : Nat → List Str → List Str
  | _, [] => []
  | j, p :: ps => ("PARTICIPANT_".toList ++ (natStr (j + 1) ++ (" = ".toList ++ p))) :: participantLines (j + 1) ps

/-- `KEY              = value` (tdm.rs 275-283), left out when the value is empty. -/
def optField (key : String) (v : Str) : List Str :=
  if v = [] then [] else [padRight 17 key.toList ++ ("= ".toList ++ v)]

/-- tdm.rs 271-284. -/
def metaLines (m : TdmMeta) : List Str :=
  "META_START".toList :: (participantLines 0 m.participants ++ (optField "MODE" m.mode ++ (optField "PATH" m.path ++
    (optField "TIME_SYSTEM" m.timeSystem ++ ["META_STOP".toList]))))

/-- tdm.rs 267-285: a blank line between the blocks. -/
def metasLines : List TdmMeta → List Str
  | [] => []
  | m :: ms => metaLines m ++ ms.flatMap (fun m => [] :: metaLines m)

/-- tdm.rs 289-296. -/
def obsLine (disp : F64 → Str) (o : Obs) : Str :=
  keywordOf o.kind ++ (" = ".toList ++ (o.epoch ++ (" : ".toList ++ disp o.value)))

/-- tdm.rs 265-300 (`write_tdm`); `disp` is `{}` of an `f64`. -/
def writeTdm (disp : F64 → Str) (msg : Tdm) : Str :=
  unlines ("CCSDS_TDM_VERS = 1.0".toList :: (metasLines msg.infos ++
    ([] :: "DATA_START".toList :: (msg.obs.map (obsLine disp) ++ ["DATA_STOP".toList]))))

end Verif.Kvn
