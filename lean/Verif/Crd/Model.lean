import Verif.Rinex.Model

/-
Model of src/formats/ilrs/crd.rs: the reader of laser ranging files, strict and permissive. The external crates chrono
and tempoch are the parameters `Env` of `Verif.Sp3`. `f64` values are rationals, infinities or NaN; arithmetic is exact.
An error is given by its line and the missing field; the path and the text of the message are left out.
-/
namespace Verif.Crd
open Verif.Text Verif.Sp3 Verif.Rinex

/-- crd.rs 356-372. -/
inductive Err where
  | noSecondsOfDay (line : Nat)
  | noTimeOfFlight (line : Nat)
deriving DecidableEq, Repr

/-- crd.rs 62-73. -/
structure Station where
  name : Str
  cdpPad : Int
  sysNo : Int
  occNo : Int
  timeZone : Int
deriving DecidableEq

/-- crd.rs 87-98. -/
structure Target where
  name : Str
  sic : Int
  norad : Str
  scFlag : Int
  epochId : Int
deriving DecidableEq

/-- crd.rs 132-159. -/
structure NormalPoint (T : Type) where
  secondsOfDay : F64
  epoch : Option T
  timeOfFlight : F64
  rangeM : F64
  systemConfigId : Str
  epochEvent : Nat
  filterFlag : Nat
  dataQuality : Nat
  formatFlag : Nat
  numRaws : Option Nat
  binRmsM : Option F64
  binSizeS : Option F64
  returnRate : Option F64
deriving DecidableEq

/-- crd.rs 178-201. -/
structure File (T : Type) where
  stationName : Str
  stationCdpPad : Int
  satelliteName : Str
  satelliteSic : Int
  satelliteNorad : Str
  sessionDate : Option T
  formatVersion : Str
  station : Station
  target : Target
  points : List (NormalPoint T)
deriving DecidableEq

/-- The variables of `parse_crd_impl` (crd.rs 257-262). -/
structure St (T : Type) where
  out : File T
  sys : Str
  date : Option (Int × Nat × Nat)

/-- crd.rs 257-262. -/
def start {T : Type} : St T :=
  ⟨⟨[], 0, [], 0, [], none, [], ⟨[], 0, 0, 0, 0⟩, ⟨[], 0, [], 0, 0⟩, []⟩, "std".toList, none⟩

/-- `tokens.next().unwrap_or("")`, at position `i` of the fields after the tag. -/
def textAt (ws : List Str) (i : Nat) : Str := ws.getD i []

/-- `tokens.next().and_then(|s| s.parse::<i32>().ok()).unwrap_or(0)`. -/
def intAt (ws : List Str) (i : Nat) : Int := ((ws[i]?).bind i32).getD 0

/-- The same for `u32`. -/
def natAt (ws : List Str) (i : Nat) : Nat := ((ws[i]?).bind u32).getD 0

/-- `rest.get(i).and_then(|s| s.parse::<u8>().ok()).unwrap_or(0)` (crd.rs 409-412). -/
def byteAt (ws : List Str) (i : Nat) : Nat := ((ws[i]?).bind (parseUInt 255)).getD 0

/-- `x as i64` of an `f64`: towards zero, saturating, NaN to zero. -/
def asI64 : F64 → Int
  | .num q => max (-2 ^ 63) (min (if 0 ≤ q then ⌊q⌋ else ⌈q⌉) (2 ^ 63 - 1))
  | .inf false => 2 ^ 63 - 1
  | .inf true => -2 ^ 63
  | .nan => 0

/-- crd.rs 388-389: `((sod - whole as f64) * 1e9).round() as u32`. -/
def subsecNanos (sod : F64) (whole : Int) : Nat :=
  match sod with
  | .num q => min (roundHalfUp ((q - whole) * 10 ^ 9)) (2 ^ 32 - 1)
  | other => asU32 other

variable {T : Type}

/-- crd.rs 387-397. -/
def epochOf (env : Env T) (sod : F64) (date : Int × Nat × Nat) : Option T :=
  let whole := asI64 sod
  let nanos := subsecNanos sod whole
  let hh := wrapU32 (whole.tdiv 3600)
  let mm := wrapU32 ((whole.tmod 3600).tdiv 60)
  let ss := wrapU32 (whole.tmod 60)
  if env.dateOk date.1 date.2.1 date.2.2 && timeOk hh mm ss nanos then env.ofChrono ⟨date.1, date.2.1, date.2.2, hh, mm, ss, nanos⟩
  else none

/-- A product with a positive constant. -/
def scaled (k : ℚ) : F64 → F64
  | .num q => .num (q * k)
  | other => other

/-- crd.rs 398: `tof * SPEED_OF_LIGHT_M_S / 2.0`. -/
def rangeOf (tof : F64) : F64 := scaled (299792458 / 2) tof

/-- crd.rs 382-435: a record of type 11. -/
def pointOf (env : Env T) (st : St T) (sod tof : F64) (rest : List Str) : NormalPoint T :=
  { secondsOfDay := sod
    epoch := st.date.bind (epochOf env sod)
    timeOfFlight := tof
    rangeM := rangeOf tof
    systemConfigId := (rest[0]?).getD st.sys
    epochEvent := byteAt rest 1
    filterFlag := byteAt rest 2
    dataQuality := byteAt rest 3
    formatFlag := byteAt rest 4
    numRaws := (rest[5]?).bind u32
    binRmsM := ((rest[6]?).bind parseFloat).map (scaled (1 / 10 ^ 12 * 299792458 / 2))
    binSizeS := none
    returnRate := (rest[9]?).bind parseFloat }

/-- crd.rs 344-437: records of type 10 and 11. -/
def rangeLine (env : Env T) (strict : Bool) (no : Nat) (st : St T) (isPoint : Bool) (ws : List Str) : Res Err (St T) :=
  match (ws[0]?).bind parseFloat, (ws[1]?).bind parseFloat with
  | some sod, some tof =>
    if isPoint then .ok { st with out := { st.out with points := st.out.points ++ [pointOf env st sod tof (ws.drop 2)] } } else .ok st
  | none, _ => if strict then .err (.noSecondsOfDay no) else .ok st
  | _, none => if strict then .err (.noTimeOfFlight no) else .ok st

/-- crd.rs 319-334. -/
def dateLine (env : Env T) (st : St T) (ws : List Str) : St T :=
  let y := intAt ws 1
  let m := natAt ws 2
  let d := natAt ws 3
  if env.dateOk y m d then
    match env.ofChrono ⟨y, m, d, 0, 0, 0, 0⟩ with
    | some t => { st with out := { st.out with sessionDate := some t }, date := some (y, m, d) }
    | none => st
  else st

/-- crd.rs 284-300. -/
def stationLine (st : St T) (ws : List Str) : St T :=
  let s : Station := ⟨textAt ws 0, intAt ws 1, intAt ws 2, intAt ws 3, intAt ws 4⟩
  { st with out := { st.out with station := s, stationName := s.name, stationCdpPad := s.cdpPad } }

/-- crd.rs 301-318. -/
def targetLine (st : St T) (ws : List Str) : St T :=
  let t : Target := ⟨textAt ws 0, intAt ws 1, textAt ws 2, intAt ws 3, intAt ws 4⟩
  { st with out := { st.out with target := t, satelliteName := t.name, satelliteSic := t.sic, satelliteNorad := t.norad } }

/-- crd.rs 277-283. -/
def versionLine (st : St T) (ws : List Str) : St T :=
  match ws[1]? with
  | some v => { st with out := { st.out with formatVersion := v } }
  | none => st

/-- crd.rs 336-342. -/
def configLine (st : St T) (ws : List Str) : St T :=
  match ws[1]? with
  | some s => { st with sys := s }
  | none => st

/-- crd.rs 264-442: one line. -/
def crdLine (env : Env T) (strict : Bool) (no : Nat) (st : St T) (raw : Str) : Res Err (St T) :=
  let line := trimEnd raw
  if line = [] then .ok st
  else
    match words line with
    | [] => .ok st
    | tag :: ws =>
      if tag = "H1".toList then .ok (versionLine st ws)
      else if tag = "H2".toList then .ok (stationLine st ws)
      else if tag = "H3".toList then .ok (targetLine st ws)
      else if tag = "H4".toList then .ok (dateLine env st ws)
      else if tag = "C0".toList then .ok (configLine st ws)
      else if tag = "10".toList then rangeLine env strict no st false ws
      else if tag = "11".toList then rangeLine env strict no st true ws
      else .ok st

/-- crd.rs 264-442. -/
def crdLoop (env : Env T) (strict : Bool) : Nat → St T → List Str → Res Err (St T)
  | _, st, [] => .ok st
  | no, st, l :: ls => (crdLine env strict no st l).bind (fun st' => crdLoop env strict (no + 1) st' ls)

/-- `parse_crd_with_mode` (crd.rs 246-248, 252-445). -/
def parseCrd (env : Env T) (strict : Bool) (text : Str) : Res Err (File T) :=
  (crdLoop env strict 1 start (lines text)).bind (fun st => .ok st.out)

end Verif.Crd
