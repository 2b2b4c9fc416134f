import Verif.Kvn.Model
import Verif.Tle.Model
import Verif.Rinex.Model

/-!
The orbit mean-elements message in its keyword and XML forms, the record behind the JSON form, the conversion from and to
element sets (`src/formats/tle/omm/mod.rs`, `kvn.rs`, `xml.rs`, `json.rs`) and the element set builder
(`src/formats/tle/builder.rs`).

Text is a list of characters. `chrono` and the time type are parameters: the calendar fields of a time, the two date
patterns of the reader, and the time of calendar fields. The text layer of `serde_json` is not modelled. Numbers are
exact rationals, infinities or not-a-number. A `HashMap` is the function it denotes.
-/
namespace Verif.Omm
open Verif.Text

/-- Calendar fields of a `chrono::DateTime<Utc>`. -/
structure Civil where
  year : Int
  month : Nat
  day : Nat
  hour : Nat
  minute : Nat
  second : Nat
  nanos : Nat
deriving DecidableEq

/-- `try_to_chrono`, the two `parse_from_str` patterns of mod.rs 239-240, `try_from_chrono`. -/
structure Env (T : Type) where
  civil : T → Option Civil
  parse : Str → Option Civil
  make : Civil → Option T

/-- The variants of `TleError` met here. -/
inductive Err where
  | missing (key : String)
  | malformed (key : String)
  | theory (t : Str)
  | epochText
  | epochTime
  | classification
  | satellite (e : Tle.TleError)
  | unset (field : String)

abbrev R (α : Type) := Res Err α

/-- mod.rs 52-87. -/
structure Omm (T : Type) where
  name : Str
  ident : Str
  epoch : T
  meanMotion : F64
  ecc : F64
  inc : F64
  node : F64
  peri : F64
  anomaly : F64
  ephemeris : Nat
  cls : Tle.Classification
  norad : Nat
  elset : Nat
  rev : Nat
  bstar : F64
  nDot : F64
  nDdot : F64
deriving DecidableEq

/-- tle.rs 211-245 with the name; all floating-point fields alike. -/
structure Card (T : Type) where
  name : Option Str
  norad : Nat
  cls : Tle.Classification
  intl : Str
  epoch : T
  nDot : F64
  nDdot : F64
  bstar : F64
  elset : Nat
  rev : Nat
  inc : F64
  node : F64
  ecc : F64
  peri : F64
  anomaly : F64
  meanMotion : F64
deriving DecidableEq

variable {T : Type}

/-! ### Designators -/

/-- mod.rs 180-200 (`expand_intl_designator`); the slices are of ASCII text. -/
def expand (field : Str) : Str :=
  let s := trim field
  if blen s < 5 ∨ s.all (fun c => c.toNat < 128) = false then s
  else if ¬ ((s.take 2).all Char.isDigit) then s
  else
    let yy : Nat := (parseUInt (2 ^ 31 - 1) (s.take 2)).getD 0
    let yyyy := if 57 ≤ yy then 1900 + yy else 2000 + yy
    padLeft '0' 4 (natStr yyyy) ++ '-' :: ((s.take 5).drop 2 ++ s.drop 5)

/-- mod.rs 202-213 (`contract_intl_designator`). -/
def contract (field : Str) : Str :=
  let s := trim field
  match find1 '-' s with
  | some (yyyy, rest) => if yyyy.length = 4 ∧ yyyy.all Char.isDigit then yyyy.drop 2 ++ rest else s
  | none => s

/-- mod.rs 111-137 (`from_tle`). -/
def fromTle (t : Card T) : Omm T :=
  { name := t.name.getD ("NORAD ".toList ++ natStr t.norad), ident := expand t.intl, epoch := t.epoch,
    meanMotion := t.meanMotion, ecc := t.ecc, inc := t.inc, node := t.node, peri := t.peri, anomaly := t.anomaly,
    ephemeris := 0, cls := t.cls, norad := t.norad, elset := t.elset, rev := t.rev, bstar := t.bstar,
    nDot := t.nDot, nDdot := t.nDdot }

/-- mod.rs 154-177 (`to_tle`). -/
def toTle (o : Omm T) : Card T :=
  { name := some o.name, norad := o.norad, cls := o.cls, intl := contract o.ident, epoch := o.epoch,
    nDot := o.nDot, nDdot := o.nDdot, bstar := o.bstar, elset := o.elset, rev := o.rev, inc := o.inc,
    node := o.node, ecc := o.ecc, peri := o.peri, anomaly := o.anomaly, meanMotion := o.meanMotion }

/-! ### Epochs -/

/-- mod.rs 221-231: the text of calendar fields, microseconds cut off. -/
def stamp (c : Civil) : Str :=
  Rinex.padInt 4 c.year ++ '-' :: (Rinex.two c.month ++ '-' :: (Rinex.two c.day ++ 'T' :: (Rinex.two c.hour ++ ':' ::
    (Rinex.two c.minute ++ ':' :: (Rinex.two c.second ++ '.' :: padLeft '0' 6 (natStr (c.nanos / 1000)))))))

/-- mod.rs 216-232 (`format_epoch`). -/
def formatEpoch (env : Env T) (t : T) : R Str := (Res.ofOption .epochTime (env.civil t)).bind (fun c => .ok (stamp c))

/-- `trim_end_matches('Z')`. -/
def trimZ (s : Str) : Str := (s.reverse.dropWhile (fun c => c = 'Z')).reverse

/-- mod.rs 235-251 (`parse_epoch`). -/
def parseEpoch (env : Env T) (raw : Str) : R T :=
  let z := trimZ (trim raw)
  (Res.ofOption .epochText (env.parse ((splitChar '+' z).headD z))).bind (fun c => Res.ofOption .epochTime (env.make c))

/-! ### The record from a table of values -/

/-- tle.rs 141-148 (`Classification::from_char`). -/
def fromChar (c : Char) : R Tle.Classification :=
  if c = 'U' then .ok .unclassified else if c = 'C' then .ok .classified else if c = 'S' then .ok .secret
  else .err .classification

def satellite (s : Str) : R Nat :=
  match Tle.parseSat s with
  | .ok n => .ok n
  | .err e => .err (.satellite e)
  | .panic => .panic

/-- kvn.rs 122-124, xml.rs 117-119. -/
def get (m : Kvn.Map) (k : String) : R Str := Res.ofOption (.missing k) (m k.toList)

/-- kvn.rs 125-131, xml.rs 120-126. -/
def getf (m : Kvn.Map) (k : String) : R F64 := (get m k).bind (fun v => Res.ofOption (.malformed k) (parseFloat v))

/-- `getf(..).unwrap_or(0.0)` (kvn.rs 174-176, xml.rs 163-165). -/
def optf (m : Kvn.Map) (k : String) : F64 := ((m k.toList).bind parseFloat).getD (.num 0)

/-- `kv.get(..).and_then(|v| v.parse().ok()).unwrap_or(0)` and `getu(..).unwrap_or(0)`. -/
def optu (max : Nat) (m : Kvn.Map) (k : String) : Nat := ((m k.toList).bind (parseUInt max)).getD 0

/-- kvn.rs 114-177, xml.rs 109-166; `un` is `xml_unescape` for XML and nothing for KVN. -/
def build (env : Env T) (un : Str → Str) (m : Kvn.Map) : R (Omm T) :=
  let theory := (m "MEAN_ELEMENT_THEORY".toList).getD "SGP4".toList
  if eqIgnoreCase theory "SGP4".toList = false then .err (.theory theory)
  else
    (get m "OBJECT_NAME").bind (fun name =>
    (get m "OBJECT_ID").bind (fun ident =>
    ((get m "EPOCH").bind (parseEpoch env)).bind (fun epoch =>
    (fromChar (((m "CLASSIFICATION_TYPE".toList).getD "U".toList).headD 'U')).bind (fun cls =>
    ((get m "NORAD_CAT_ID").bind satellite).bind (fun norad =>
    (getf m "MEAN_MOTION").bind (fun mm => (getf m "ECCENTRICITY").bind (fun ecc => (getf m "INCLINATION").bind (fun inc =>
    (getf m "RA_OF_ASC_NODE").bind (fun node => (getf m "ARG_OF_PERICENTER").bind (fun peri =>
    (getf m "MEAN_ANOMALY").bind (fun anomaly =>
    .ok { name := un name, ident := un ident, epoch := epoch, meanMotion := mm, ecc := ecc, inc := inc, node := node,
          peri := peri, anomaly := anomaly, ephemeris := optu (2 ^ 8 - 1) m "EPHEMERIS_TYPE", cls := cls, norad := norad,
          elset := optu (2 ^ 16 - 1) m "ELEMENT_SET_NO", rev := optu (2 ^ 32 - 1) m "REV_AT_EPOCH",
          bstar := optf m "BSTAR", nDot := optf m "MEAN_MOTION_DOT", nDdot := optf m "MEAN_MOTION_DDOT" })))))))))))

/-! ### Keyword form -/

/-- kvn.rs 101-112: one line. -/
def kvnLine (m : Kvn.Map) (raw : Str) : Kvn.Map :=
  let line := trim raw
  if line = [] ∨ "COMMENT".toList.isPrefixOf line = true then m
  else
    match find1 '=' line with
    | some (k, v) => Kvn.insert m (trim k) (trim v)
    | none => m

/-- kvn.rs 98-178 (`read`). -/
def readKvn (env : Env T) (text : Str) : R (Omm T) := build env id ((lines text).foldl kvnLine (fun _ => none))

/-- The decimal exponent and the nine digits of `{:.8e}`. -/
def sciParts (q : ℚ) : Int × Nat :=
  if q = 0 then (0, 0)
  else
    let e := Int.log 10 |q|
    let m := roundHalfEven (|q| / (10 : ℚ) ^ e * 10 ^ 8)
    if m = 10 ^ 9 then (e + 1, 10 ^ 8) else (e, m)

/-- `{:.8e}`. -/
def sci : F64 → Str
  | .num q => (if q < 0 then ['-'] else []) ++ (fixedStr 8 (sciParts q).2 ++ 'e' :: Sp3.intStr (sciParts q).1)
  | .inf neg => (if neg then ['-'] else []) ++ "inf".toList
  | .nan => "NaN".toList

/-- `KEY = value`. -/
def kv (key : String) (v : Str) : Str := key.toList ++ (" = ".toList ++ v)

/-- kvn.rs 32-71. -/
def kvnLines (o : Omm T) (epoch : Str) : List Str :=
  [kv "CCSDS_OMM_VERS" "2.0".toList, kv "CREATION_DATE" epoch, kv "ORIGINATOR" "siderust-tle".toList,
   kv "OBJECT_NAME" o.name, kv "OBJECT_ID" o.ident, kv "CENTER_NAME" "EARTH".toList, kv "REF_FRAME" "TEME".toList,
   kv "TIME_SYSTEM" "UTC".toList, kv "MEAN_ELEMENT_THEORY" "SGP4".toList, kv "EPOCH" epoch,
   kv "MEAN_MOTION" (Sp3.fmtF64 8 o.meanMotion), kv "ECCENTRICITY" (Sp3.fmtF64 7 o.ecc),
   kv "INCLINATION" (Sp3.fmtF64 4 o.inc), kv "RA_OF_ASC_NODE" (Sp3.fmtF64 4 o.node),
   kv "ARG_OF_PERICENTER" (Sp3.fmtF64 4 o.peri), kv "MEAN_ANOMALY" (Sp3.fmtF64 4 o.anomaly),
   kv "EPHEMERIS_TYPE" (natStr o.ephemeris), kv "CLASSIFICATION_TYPE" [o.cls.asChar], kv "NORAD_CAT_ID" (natStr o.norad),
   kv "ELEMENT_SET_NO" (natStr o.elset), kv "REV_AT_EPOCH" (natStr o.rev), kv "BSTAR" (sci o.bstar),
   kv "MEAN_MOTION_DOT" (sci o.nDot), kv "MEAN_MOTION_DDOT" (sci o.nDdot)]

/-- kvn.rs 29-73 (`write`). -/
def writeKvn (env : Env T) (o : Omm T) : R Str :=
  (formatEpoch env o.epoch).bind (fun e => .ok (unlines (kvnLines o e)))

/-! ### XML form -/

/-- `str::find(&str)`: the text before and after the first occurrence. -/
def findSub (p : Str) : Str → Option (Str × Str)
  | [] => if p = [] then some ([], []) else none
  | c :: t => if p.isPrefixOf (c :: t) then some ([], (c :: t).drop p.length) else (findSub p t).map (fun r => (c :: r.1, r.2))

/-- `str::replace(&str, &str)` for a pattern that is not empty; the number counts the characters of a match still to drop. -/
def replaceGo (p r : Str) : Nat → Str → Str
  | _, [] => []
  | 0, c :: t => if p.isPrefixOf (c :: t) then r ++ replaceGo p r (p.length - 1) t else c :: replaceGo p r 0 t
  | k + 1, _ :: t => replaceGo p r k t

def replace (p r s : Str) : Str := replaceGo p r 0 s

/-- xml.rs 202-208 (`xml_escape`). -/
def escape (s : Str) : Str :=
  replace "'".toList "&apos;".toList (replace "\"".toList "&quot;".toList (replace ">".toList "&gt;".toList
    (replace "<".toList "&lt;".toList (replace "&".toList "&amp;".toList s))))

/-- xml.rs 210-216 (`xml_unescape`). -/
def unescape (s : Str) : Str :=
  replace "&amp;".toList "&".toList (replace "&lt;".toList "<".toList (replace "&gt;".toList ">".toList
    (replace "&quot;".toList "\"".toList (replace "&apos;".toList "'".toList s))))

/-- xml.rs 193-200 (`extract_tag`). -/
def extractTag (input tag : Str) : Option Str :=
  (findSub ('<' :: (tag ++ ['>'])) input).bind (fun r =>
    (findSub ('<' :: '/' :: (tag ++ ['>'])) r.2).map (fun q => trim q.1))

/-- xml.rs 169-191. -/
def tags : List String :=
  ["OBJECT_NAME", "OBJECT_ID", "CENTER_NAME", "REF_FRAME", "TIME_SYSTEM", "MEAN_ELEMENT_THEORY", "EPOCH", "MEAN_MOTION",
   "ECCENTRICITY", "INCLINATION", "RA_OF_ASC_NODE", "ARG_OF_PERICENTER", "MEAN_ANOMALY", "EPHEMERIS_TYPE",
   "CLASSIFICATION_TYPE", "NORAD_CAT_ID", "ELEMENT_SET_NO", "REV_AT_EPOCH", "BSTAR", "MEAN_MOTION_DOT", "MEAN_MOTION_DDOT"]

/-- xml.rs 102-107. -/
def xmlMap (input : Str) : Kvn.Map := fun k => if k ∈ tags.map String.toList then extractTag input k else none

/-- xml.rs 100-167 (`read`). -/
def readXml (env : Env T) (input : Str) : R (Omm T) := build env unescape (xmlMap input)

/-- `<TAG>value</TAG>`. -/
def el (tag : String) (v : Str) : Str := '<' :: (tag.toList ++ '>' :: (v ++ '<' :: '/' :: (tag.toList ++ ['>'])))

/-- xml.rs 34-81. -/
def xmlLines (o : Omm T) (epoch : Str) : List Str :=
  ["<?xml version=\"1.0\" encoding=\"UTF-8\"?>".toList, "<omm id=\"CCSDS_OMM_VERS\" version=\"2.0\">".toList,
   "<body><segment><metadata>".toList, el "OBJECT_NAME" (escape o.name), el "OBJECT_ID" (escape o.ident),
   el "CENTER_NAME" "EARTH".toList, el "REF_FRAME" "TEME".toList, el "TIME_SYSTEM" "UTC".toList,
   el "MEAN_ELEMENT_THEORY" "SGP4".toList, "</metadata><data>".toList, "<meanElements>".toList, el "EPOCH" epoch,
   el "MEAN_MOTION" (Sp3.fmtF64 8 o.meanMotion), el "ECCENTRICITY" (Sp3.fmtF64 7 o.ecc),
   el "INCLINATION" (Sp3.fmtF64 4 o.inc), el "RA_OF_ASC_NODE" (Sp3.fmtF64 4 o.node),
   el "ARG_OF_PERICENTER" (Sp3.fmtF64 4 o.peri), el "MEAN_ANOMALY" (Sp3.fmtF64 4 o.anomaly), "</meanElements>".toList,
   "<tleParameters>".toList, el "EPHEMERIS_TYPE" (natStr o.ephemeris), el "CLASSIFICATION_TYPE" [o.cls.asChar],
   el "NORAD_CAT_ID" (natStr o.norad), el "ELEMENT_SET_NO" (natStr o.elset), el "REV_AT_EPOCH" (natStr o.rev),
   el "BSTAR" (sci o.bstar), el "MEAN_MOTION_DOT" (sci o.nDot), el "MEAN_MOTION_DDOT" (sci o.nDdot),
   "</tleParameters>".toList, "</data></segment></body></omm>".toList]

/-- xml.rs 32-82 (`write`). -/
def writeXml (env : Env T) (o : Omm T) : R Str :=
  (formatEpoch env o.epoch).bind (fun e => .ok (unlines (xmlLines o e)))

/-! ### The record of the JSON form -/

/-- json.rs 95-122 (`OmmDto`). -/
structure Dto where
  name : Str
  ident : Str
  epoch : Str
  meanMotion : F64
  ecc : F64
  inc : F64
  node : F64
  peri : F64
  anomaly : F64
  ephemeris : Nat
  cls : Str
  norad : Nat
  elset : Nat
  rev : Nat
  bstar : F64
  nDot : F64
  nDdot : F64
  theory : Option Str
deriving DecidableEq

/-- json.rs 129-150 (`from_omm`). -/
def toDto (env : Env T) (o : Omm T) : R Dto :=
  (formatEpoch env o.epoch).bind (fun e => .ok
    { name := o.name, ident := o.ident, epoch := e, meanMotion := o.meanMotion, ecc := o.ecc, inc := o.inc, node := o.node,
      peri := o.peri, anomaly := o.anomaly, ephemeris := o.ephemeris, cls := [o.cls.asChar], norad := o.norad,
      elset := o.elset, rev := o.rev, bstar := o.bstar, nDot := o.nDot, nDdot := o.nDdot, theory := some "SGP4".toList })

/-- json.rs 152-179 (`into_omm`). -/
def ofDto (env : Env T) (d : Dto) : R (Omm T) :=
  if d.theory.any (fun t => eqIgnoreCase t "SGP4".toList = false) then .err (.theory (d.theory.getD []))
  else
    (parseEpoch env d.epoch).bind (fun epoch =>
    (fromChar (d.cls.headD 'U')).bind (fun cls => .ok
    { name := d.name, ident := d.ident, epoch := epoch, meanMotion := d.meanMotion, ecc := d.ecc, inc := d.inc,
      node := d.node, peri := d.peri, anomaly := d.anomaly, ephemeris := d.ephemeris, cls := cls, norad := d.norad,
      elset := d.elset, rev := d.rev, bstar := d.bstar, nDot := d.nDot, nDdot := d.nDdot }))

/-! ### Element set builder -/

/-- builder.rs 62-79 (`TleBuilder`); a new one is `Default`. -/
structure Builder (T : Type) where
  name : Option Str := none
  norad : Option Nat := none
  cls : Option Tle.Classification := none
  intl : Option Str := none
  epoch : Option T := none
  nDot : F64 := .num 0
  nDdot : F64 := .num 0
  bstar : F64 := .num 0
  elset : Nat := 0
  rev : Nat := 0
  inc : Option F64 := none
  node : Option F64 := none
  ecc : Option F64 := none
  peri : Option F64 := none
  anomaly : Option F64 := none
  meanMotion : Option F64 := none

/-- A call of a setter. -/
inductive Set (T : Type) where
  | name (v : Str) | norad (v : Nat) | cls (v : Tle.Classification) | intl (v : Str) | epoch (v : T)
  | nDot (v : F64) | nDdot (v : F64) | bstar (v : F64) | elset (v : Nat) | rev (v : Nat)
  | inc (v : F64) | node (v : F64) | ecc (v : F64) | peri (v : F64) | anomaly (v : F64) | meanMotion (v : F64)

/-- builder.rs 102-311: the setters. -/
def Builder.set (b : Builder T) : Set T → Builder T
  | .name v => { b with name := some v }
  | .norad v => { b with norad := some v }
  | .cls v => { b with cls := some v }
  | .intl v => { b with intl := some v }
  | .epoch v => { b with epoch := some v }
  | .nDot v => { b with nDot := v }
  | .nDdot v => { b with nDdot := v }
  | .bstar v => { b with bstar := v }
  | .elset v => { b with elset := v }
  | .rev v => { b with rev := v }
  | .inc v => { b with inc := some v }
  | .node v => { b with node := some v }
  | .ecc v => { b with ecc := some v }
  | .peri v => { b with peri := some v }
  | .anomaly v => { b with anomaly := some v }
  | .meanMotion v => { b with meanMotion := some v }

def need {α : Type} (field : String) (o : Option α) : R α := Res.ofOption (.unset field) o

/-- builder.rs 324-357 (`build`): fields are evaluated in the order written. -/
def Builder.build (b : Builder T) : R (Card T) :=
  (need "norad_id" b.norad).bind (fun norad => (need "international_designator" b.intl).bind (fun intl =>
  (need "epoch" b.epoch).bind (fun epoch => (need "inclination" b.inc).bind (fun inc => (need "raan" b.node).bind (fun node =>
  (need "eccentricity" b.ecc).bind (fun ecc => (need "argument_of_perigee" b.peri).bind (fun peri =>
  (need "mean_anomaly" b.anomaly).bind (fun anomaly => (need "mean_motion" b.meanMotion).bind (fun mm =>
  .ok { name := b.name, norad := norad, cls := b.cls.getD .unclassified, intl := intl, epoch := epoch, nDot := b.nDot,
        nDdot := b.nDdot, bstar := b.bstar, elset := b.elset, rev := b.rev, inc := inc, node := node, ecc := ecc,
        peri := peri, anomaly := anomaly, meanMotion := mm })))))))))

/-- A new builder after a sequence of calls. -/
def built (calls : List (Set T)) : Builder T := calls.foldl Builder.set {}

end Verif.Omm
