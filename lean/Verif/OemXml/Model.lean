import Verif.Ccsds.Xml

/-
Model of src/formats/ccsds/oem.rs 450-747: the XML writer and reader of orbit ephemeris messages.

The reader stands on the external crate quick_xml (Cargo.lock: 0.40.1).  `tokens` records what the reader relies on:
markup, references and text are separate events, text is trimmed (`trim_text(true)`), end tags must match.  Left out:
`>` inside a quoted attribute value, a document type with an internal subset, input that is not UTF-8, error texts.
-/
namespace Verif.OemXml
open Verif.Text

/-- The events of quick_xml that the reader tells apart (oem.rs 608-731); `other` are declarations, comments,
processing instructions, CDATA sections and empty elements, `bad` is an error of the tokenizer. -/
inductive Ev where
  | start (name : Str) (attrs : List (Str × Str))
  | stop (name : Str)
  | text (t : Str)
  | ref (name : Str)
  | other
  | bad
deriving DecidableEq

/-- White space of XML. -/
def isBlank (c : Char) : Bool := c = ' ' || c = '\t' || c = '\r' || c = '\n'

/-- `trim_text(true)`. -/
def trimBlank (s : Str) : Str := ((s.dropWhile isBlank).reverse.dropWhile isBlank).reverse

/-- What follows the first occurrence of `pat`. -/
def after (pat : Str) : Str → Option Str
  | [] => none
  | c :: t => match stripPrefix pat (c :: t) with
    | some r => some r
    | none => after pat t

/-- Attributes `key="value"` or `key='value'`. -/
def attributes : Nat → Str → List (Str × Str)
  | 0, _ => []
  | n + 1, s =>
    match find1 '=' (s.dropWhile isBlank) with
    | some (k, q :: r) =>
      if q = '"' ∨ q = '\'' then
        match find1 q r with
        | some (v, r) => (trimBlank k, v) :: attributes n r
        | none => []
      else []
    | _ => []

inductive Tag where
  | opening (name : Str) (attrs : List (Str × Str))
  | closing (name : Str)
  | single

/-- The markup after a `<`, and the rest. -/
def markup (s : Str) : Option (Tag × Str) :=
  match s with
  | '?' :: r => (after "?>".toList r).map (fun r => (.single, r))
  | '!' :: r =>
    if "--".toList.isPrefixOf r then (after "-->".toList (r.drop 2)).map (fun r => (.single, r))
    else if "[CDATA[".toList.isPrefixOf r then (after "]]>".toList r).map (fun r => (.single, r))
    else (after ">".toList r).map (fun r => (.single, r))
  | '/' :: r => (find1 '>' r).map (fun p => (.closing (trimBlank p.1), p.2))
  | s => (find1 '>' s).map (fun p =>
      (if p.1.getLast? = some '/' then Tag.single
       else .opening (p.1.takeWhile (fun c => !isBlank c)) (attributes p.1.length (p.1.dropWhile (fun c => !isBlank c))), p.2))

/-- Characters of a text event. -/
def isText (c : Char) : Bool := c != '<' && c != '&'

/-- The events of a document; the second argument are the open elements. -/
def tokens : Nat → List Str → Str → List Ev
  | 0, _, _ => [.bad]
  | _ + 1, _, [] => []
  | n + 1, st, c :: t =>
    if c = '<' then
      match markup t with
      | none => [.bad]
      | some (.opening name attrs, r) => .start name attrs :: tokens n (name :: st) r
      | some (.closing name, r) =>
        match st with
        | top :: st => if top = name then .stop name :: tokens n st r else [.bad]
        | [] => [.bad]
      | some (.single, r) => .other :: tokens n st r
    else if c = '&' then
      match find1 ';' t with
      | some (name, r) => .ref name :: tokens n st r
      | none => [.bad]
    else
      let v := trimBlank ((c :: t).takeWhile isText)
      if v = [] then tokens n st ((c :: t).dropWhile isText) else .text v :: tokens n st ((c :: t).dropWhile isText)

/-- The error values (`FormatError::Format`). -/
inductive Err where
  | noStates
  | xml
  | vector (name : Str)
  | info (name : Str)
  | noSegments
deriving DecidableEq

abbrev R := Res Err

/-- oem.rs 40-47 as read here: no component is checked for finiteness. -/
structure State where
  epoch : F64
  x : F64
  y : F64
  z : F64
  vx : F64
  vy : F64
  vz : F64
deriving DecidableEq

/-- oem.rs 579-588. -/
structure VecB where
  epoch : Option F64 := none
  x : Option F64 := none
  y : Option F64 := none
  z : Option F64 := none
  vx : Option F64 := none
  vy : Option F64 := none
  vz : Option F64 := none

/-- oem.rs 154-160. -/
structure Segment where
  info : Ccsds.Meta
  states : List State
deriving DecidableEq

/-- oem.rs 589-598. -/
structure SegB where
  info : Ccsds.MetaBuilder := {}
  states : List State := []
  cur : Option VecB := none

/-- oem.rs 600-606. -/
structure St where
  version : Str := "3.0".toList
  creation : Str := []
  originator : Str := []
  segments : List Segment := []
  seg : Option SegB := none
  tag : Option Str := none

/-- `name.rsplit(':').next()` (oem.rs 616, 635). -/
def localName (name : Str) : Str := ((splitChar ':' name).getLast?).getD name

/-- oem.rs 619-623. -/
def lastVersion (attrs : List (Str × Str)) (v : Str) : Str :=
  attrs.foldl (fun v a => if a.1 = "version".toList then a.2 else v) v

/-- oem.rs 642-649, 666-674. -/
def need {α : Type} (e : Str → Err) (o : Option α) (name : String) : R α := Res.ofOption (e name.toList) o

/-- oem.rs 650-658. -/
def build (b : VecB) : R State :=
  (need .vector b.epoch "EPOCH").bind (fun t =>
  (need .vector b.x "X").bind (fun x => (need .vector b.y "Y").bind (fun y => (need .vector b.z "Z").bind (fun z =>
  (need .vector b.vx "X_DOT").bind (fun vx => (need .vector b.vy "Y_DOT").bind (fun vy => (need .vector b.vz "Z_DOT").bind (fun vz =>
    .ok ⟨t, x, y, z, vx, vy, vz⟩)))))))

/-- oem.rs 675-684. -/
def buildMeta (m : Ccsds.MetaBuilder) : R Ccsds.Meta :=
  (need .info m.objectId "OBJECT_ID").bind (fun a => (need .info m.objectName "OBJECT_NAME").bind (fun b =>
  (need .info m.refFrame "REF_FRAME").bind (fun c => (need .info m.timeSystem "TIME_SYSTEM").bind (fun d =>
  (need .info m.centerName "CENTER_NAME").bind (fun e => .ok ⟨a, b, c, d, e⟩)))))

/-- `xml10_content` (oem.rs 691): line ends become line feeds.  `unescape` does nothing to a text without `&`. -/
def lineFeeds : Str → Str
  | '\r' :: '\n' :: t => '\n' :: lineFeeds t
  | '\r' :: t => '\n' :: lineFeeds t
  | c :: t => c :: lineFeeds t
  | [] => []

/-- oem.rs 703-712. -/
def vecField (b : VecB) (tag v : Str) : VecB :=
  if tag = "EPOCH".toList then { b with epoch := Ccsds.isoToJd v }
  else if tag = "X".toList then { b with x := parseFloat v }
  else if tag = "Y".toList then { b with y := parseFloat v }
  else if tag = "Z".toList then { b with z := parseFloat v }
  else if tag = "X_DOT".toList then { b with vx := parseFloat v }
  else if tag = "Y_DOT".toList then { b with vy := parseFloat v }
  else if tag = "Z_DOT".toList then { b with vz := parseFloat v }
  else b

/-- oem.rs 689-730. -/
def onText (s : St) (v : Str) : St :=
  match s.tag with
  | none => s
  | some tag =>
    match s.seg with
    | some g =>
      match g.cur with
      | some b => { s with seg := some { g with cur := some (vecField b tag v) } }
      | none => { s with seg := some { g with info := Ccsds.metaField g.info tag v } }
    | none =>
      if tag = "CREATION_DATE".toList then { s with creation := v }
      else if tag = "ORIGINATOR".toList then { s with originator := v }
      else s

/-- oem.rs 614-632. -/
def onStart (s : St) (name : Str) (attrs : List (Str × Str)) : St :=
  let s := if localName name = "oem".toList then { s with version := lastVersion attrs s.version }
    else if localName name = "segment".toList then { s with seg := some {} }
    else if localName name = "stateVector".toList then { s with seg := s.seg.map (fun g => { g with cur := some {} }) }
    else s
  { s with tag := some (localName name) }

/-- oem.rs 633-688. -/
def onStop (s : St) (name : Str) : R St :=
  if localName name = "stateVector".toList then
    match s.seg with
    | some g =>
      match g.cur with
      | some b => (build b).bind (fun st => .ok { s with seg := some { g with states := g.states ++ [st], cur := none }, tag := none })
      | none => .ok { s with tag := none }
    | none => .ok { s with tag := none }
  else if localName name = "segment".toList then
    match s.seg with
    | some g => (buildMeta g.info).bind (fun m => .ok { s with segments := s.segments ++ [⟨m, g.states⟩], seg := none, tag := none })
    | none => .ok { s with tag := none }
  else .ok { s with tag := none }

/-- oem.rs 608-732. -/
def step (s : St) : Ev → R St
  | .start name attrs => .ok (onStart s name attrs)
  | .stop name => onStop s name
  | .text t => .ok (onText s (lineFeeds t))
  | .ref _ => .ok s
  | .other => .ok s
  | .bad => .err .xml

def loop : St → List Ev → R St
  | s, [] => .ok s
  | s, e :: es => (step s e).bind (fun s => loop s es)

/-- oem.rs 163-174. -/
structure File where
  version : Str
  creation : Str
  originator : Str
  segments : List Segment
deriving DecidableEq

/-- oem.rs 735-746. -/
def finish (s : St) : R File :=
  if s.segments = [] then .err .noSegments else .ok ⟨s.version, s.creation, s.originator, s.segments⟩

/-- The reader on events (oem.rs 600-746). -/
def readEvents (es : List Ev) : R File := (loop {} es).bind finish

/-- `read_oem_xml` (oem.rs 568-747). -/
def readXml (text : Str) : R File := readEvents (tokens (text.length + 1) [] text)

/-- One element on a line of its own. -/
def element (indent : Nat) (name : String) (attrs : String) (v : Str) : Str :=
  List.replicate indent ' ' ++ '<' :: (name.toList ++ attrs.toList ++ '>' :: (v ++ '<' :: '/' :: (name.toList ++ ['>'])))

/-- oem.rs 502-522. -/
def vectorLines (s : Ccsds.State) : List Str :=
  ["        <stateVector>".toList,
   element 10 "EPOCH" "" (Ccsds.jdToIso s.epoch),
   element 10 "X" " units=\"km\"" (fmtFixed 6 s.x),
   element 10 "Y" " units=\"km\"" (fmtFixed 6 s.y),
   element 10 "Z" " units=\"km\"" (fmtFixed 6 s.z),
   element 10 "X_DOT" " units=\"km/s\"" (fmtFixed 9 s.vx),
   element 10 "Y_DOT" " units=\"km/s\"" (fmtFixed 9 s.vy),
   element 10 "Z_DOT" " units=\"km/s\"" (fmtFixed 9 s.vz),
   "        </stateVector>".toList]

/-- `write_oem_xml` (oem.rs 450-528). -/
def writeXml (m : Ccsds.Meta) (states : List Ccsds.State) : R Str :=
  match states with
  | [] => .err .noStates
  | first :: rest =>
    .ok (unlines (
      ["<?xml version=\"1.0\" encoding=\"UTF-8\"?>".toList,
       "<oem id=\"CCSDS_OEM_VERS\" version=\"3.0\">".toList,
       "  <header>".toList,
       element 4 "CREATION_DATE" "" "2026-01-01T00:00:00".toList,
       element 4 "ORIGINATOR" "" "SIDERUST-POD".toList,
       "  </header>".toList,
       "  <body>".toList,
       "    <segment>".toList,
       "      <metadata>".toList,
       element 8 "OBJECT_NAME" "" (Ccsds.xmlEscape m.objectName),
       element 8 "OBJECT_ID" "" (Ccsds.xmlEscape m.objectId),
       element 8 "CENTER_NAME" "" (Ccsds.xmlEscape m.centerName),
       element 8 "REF_FRAME" "" (Ccsds.xmlEscape m.refFrame),
       element 8 "TIME_SYSTEM" "" (Ccsds.xmlEscape m.timeSystem),
       element 8 "START_TIME" "" (Ccsds.jdToIso first.epoch),
       element 8 "STOP_TIME" "" (Ccsds.jdToIso ((rest.getLast?).getD first).epoch),
       "      </metadata>".toList,
       "      <data>".toList] ++ (first :: rest).flatMap vectorLines ++
      ["      </data>".toList, "    </segment>".toList, "  </body>".toList, "</oem>".toList]))

end Verif.OemXml
