import Verif.OemXml.Model

/-! # What an orbit ephemeris document says -/

namespace Verif.OemXml.Spec
open Verif.Text

/-- The part of a name after its last colon. -/
def bare (name : Str) : Str := (name.reverse.takeWhile (fun c => c != ':')).reverse

/-- An element with only text in it.  References, comments and the like divide the text into runs. -/
structure Field where
  name : Str
  attrs : List (Str × Str)
  runs : List Str

structure SegDoc where
  info : List Field
  vectors : List (List Field)

/-- A document; `pre` is the namespace prefix of its structure. -/
structure Doc where
  pre : Str
  attrs : List (Str × Str)
  header : List Field
  segments : List SegDoc

/-- The events of an element. -/
def Field.events (f : Field) : List Ev := .start f.name f.attrs :: (f.runs.map Ev.text ++ [.stop f.name])

def wrap (name : Str) (inner : List Ev) : List Ev := .start name [] :: (inner ++ [.stop name])

def SegDoc.events (pre : Str) (g : SegDoc) : List Ev :=
  wrap (pre ++ "segment".toList)
    (wrap (pre ++ "metadata".toList) (g.info.flatMap Field.events) ++
     wrap (pre ++ "data".toList) (g.vectors.flatMap (fun v => wrap (pre ++ "stateVector".toList) (v.flatMap Field.events))))

def Doc.events (d : Doc) : List Ev :=
  .start (d.pre ++ "oem".toList) d.attrs ::
    (wrap (d.pre ++ "header".toList) (d.header.flatMap Field.events) ++
     wrap (d.pre ++ "body".toList) (d.segments.flatMap (SegDoc.events d.pre)) ++ [.stop (d.pre ++ "oem".toList)])

/-- Every run of text with the bare name of its element. -/
def pairs (fs : List Field) : List (Str × Str) := fs.flatMap (fun f => f.runs.map (fun v => (bare f.name, v)))

/-- The last run of text in an element of that name. -/
def last (key : String) (fs : List Field) : Option Str :=
  (((pairs fs).filter (fun p => p.1 = key.toList)).getLast?).map Prod.snd

/-- A number in the words of the reader: any text that parses, infinities and NaN too. -/
def number (key : String) (fs : List Field) : Option F64 := (last key fs).bind parseFloat

/-- A state vector: all seven fields, each readable. -/
def vector (fs : List Field) : Option State :=
  ((last "EPOCH" fs).bind Ccsds.isoToJd).bind fun t =>
  (number "X" fs).bind fun x => (number "Y" fs).bind fun y => (number "Z" fs).bind fun z =>
  (number "X_DOT" fs).bind fun vx => (number "Y_DOT" fs).bind fun vy => (number "Z_DOT" fs).bind fun vz =>
  some ⟨t, x, y, z, vx, vy, vz⟩

/-- Metadata: all five fields. -/
def info (fs : List Field) : Option Ccsds.Meta :=
  (last "OBJECT_ID" fs).bind fun a => (last "OBJECT_NAME" fs).bind fun b => (last "REF_FRAME" fs).bind fun c =>
  (last "TIME_SYSTEM" fs).bind fun d => (last "CENTER_NAME" fs).bind fun e => some ⟨a, b, c, d, e⟩

/-- All or nothing. -/
def every {α β : Type} (f : α → Option β) : List α → Option (List β)
  | [] => some []
  | a :: as => (f a).bind fun b => (every f as).bind fun bs => some (b :: bs)

def segment (g : SegDoc) : Option Segment :=
  (every vector g.vectors).bind fun vs => (info g.info).bind fun m => some ⟨m, vs⟩

/-- The file: none unless there is a segment and every one is complete. -/
def file (d : Doc) : Option File :=
  (every segment d.segments).bind fun gs =>
    if gs = [] then none
    else some ⟨(((d.attrs.filter (fun a => a.1 = "version".toList)).getLast?).map Prod.snd).getD "3.0".toList,
      (last "CREATION_DATE" d.header).getD [], (last "ORIGINATOR" d.header).getD [], gs⟩

/-- Elements that are not structure, and texts without carriage returns. -/
def FieldOk (f : Field) : Prop :=
  bare f.name ≠ "oem".toList ∧ bare f.name ≠ "segment".toList ∧ bare f.name ≠ "stateVector".toList ∧ ∀ v ∈ f.runs, '\r' ∉ v

structure DocOk (d : Doc) : Prop where
  pre : d.pre = [] ∨ ∃ p, d.pre = p ++ [':']
  header : ∀ f ∈ d.header, FieldOk f
  info : ∀ g ∈ d.segments, ∀ f ∈ g.info, FieldOk f
  vectors : ∀ g ∈ d.segments, ∀ v ∈ g.vectors, ∀ f ∈ v, FieldOk f

/-- Events the reader passes over. -/
def Passed : Ev → Prop
  | .ref _ => True
  | .other => True
  | _ => False

instance : DecidablePred Passed := fun e => by cases e <;> unfold Passed <;> infer_instance

/-- A reader answers what the document says, and an error if it says nothing. -/
def Answers {α : Type} (r : R α) (o : Option α) : Prop :=
  match o with
  | some a => r = .ok a
  | none => ∃ e, r = .err e

/-- Characters that XML text does not hold as they are. -/
def Special (c : Char) : Prop := c = '&' ∨ c = '<' ∨ c = '>' ∨ c = '"'

instance : DecidablePred Special := fun c => by unfold Special; infer_instance

/-- A name cut at its special characters; `cur` is the piece begun. -/
def pieces (cur : Str) : Str → List Str
  | [] => [cur]
  | c :: t => if Special c then cur :: pieces [] t else pieces (cur ++ [c]) t

/-- A name without the white space around it. -/
def strip (s : Str) : Str := ((s.reverse.dropWhile (fun c => c ∈ [' ', '\t', '\r', '\n'])).reverse).dropWhile (fun c => c ∈ [' ', '\t', '\r', '\n'])

/-- The pieces of a name that hold anything, without the white space around them. -/
def held (name : Str) : List Str := ((pieces [] name).map strip).filter (fun v => v ≠ [])

/-- The state read is the state written, to half a unit in the last place printed. -/
structure Close (s : Ccsds.State) (r : State) : Prop where
  epoch : ∃ jd, r.epoch = .num jd ∧ |jd - s.epoch| * 86400 ≤ 1 / 2 / 10 ^ 6
  x : ∃ v, r.x = .num v ∧ |v - s.x| ≤ 1 / 2 / 10 ^ 6
  y : ∃ v, r.y = .num v ∧ |v - s.y| ≤ 1 / 2 / 10 ^ 6
  z : ∃ v, r.z = .num v ∧ |v - s.z| ≤ 1 / 2 / 10 ^ 6
  vx : ∃ v, r.vx = .num v ∧ |v - s.vx| ≤ 1 / 2 / 10 ^ 9
  vy : ∃ v, r.vy = .num v ∧ |v - s.vy| ≤ 1 / 2 / 10 ^ 9
  vz : ∃ v, r.vz = .num v ∧ |v - s.vz| ≤ 1 / 2 / 10 ^ 9

end Verif.OemXml.Spec
