import Verif.Text.Lines
import Verif.Sp3.Model

/-!
ORBEX, SINEX and ANTEX (`src/formats/igs/orbex.rs`, `sinex.rs`, `antex.rs`).

Text is a list of characters and the byte source is the lines it yields. Read errors and input that is not
UTF-8 are not modelled. Sums of days and fractions of days are exact. `chrono::NaiveDate::from_yo_opt` followed by the
difference to 17 November 1858 is a parameter. A `HashMap` that is only looked up is the function it denotes; where the
program walks over one, the order is a parameter.
-/
namespace Verif.Igs
open Verif.Text

/-- The errors, with the line. -/
inductive Err where
  | fields (line : Nat)
  | number (line : Nat)
deriving DecidableEq

abbrev R (α : Type) := Res Err α

/-- formats/mod.rs (`ParseMode`). -/
inductive ParseMode where
  | strict | permissive
deriving DecidableEq

/-- `NaiveDate::from_yo_opt(year, day)` minus 1858-11-17, in days. -/
abbrev Yo := Int → Nat → Option Int

/-- `days + sod / 86400.0`. -/
def addSod (days : Int) : F64 → F64
  | .num q => .num (days + q / 86400)
  | .inf n => .inf n
  | .nan => .nan

/-- orbex.rs 301-309, sinex.rs 300-306. -/
def yearDay (yo : Yo) (year : Int) (doy : Nat) (sod : F64) : F64 :=
  match yo year (max doy 1) with
  | some d => addSod d sod
  | none => .num 0

def i32Max : Nat := 2147483647
def u32Max : Nat := 4294967295

/-! ### ORBEX -/

/-- orbex.rs 29-38. -/
structure Orb where
  sat : Str
  epoch : F64
  pos : F64 × F64 × F64
  vel : Option (F64 × F64 × F64)
deriving DecidableEq

/-- orbex.rs 50-57. -/
structure Clk where
  sat : Str
  epoch : F64
  bias : F64
deriving DecidableEq

/-- orbex.rs 73-80. -/
structure Att where
  sat : Str
  epoch : F64
  q : F64 × F64 × F64 × F64
deriving DecidableEq

/-- orbex.rs 92-101. -/
structure Orbex where
  version : Str
  orbits : List Orb
  clocks : List Clk
  attitudes : List Att
deriving DecidableEq

/-- orbex.rs 135-140. -/
inductive Section where
  | none | orb | clk | att
deriving DecidableEq

structure OSt where
  sect : Section
  epoch : F64
  out : Orbex
deriving DecidableEq

/-- orbex.rs 287-299 (the two errors differ only in their text). -/
def number (no : Nat) (s : Str) : R F64 := Res.ofOption (.number no) (parseFloat s)

/-- orbex.rs 210-219, 240-249, 259-268: what happens to a record with too few fields. -/
def short {α : Type} (mode : ParseMode) (no : Nat) (dflt : α) : R α :=
  match mode with
  | .strict => .err (.fields no)
  | .permissive => .ok dflt

/-- orbex.rs 224-231. -/
def velocity (no : Nat) (rest : List Str) : R (Option (F64 × F64 × F64)) :=
  match rest with
  | vx :: vy :: vz :: _ => (number no vx).bind (fun a => (number no vy).bind (fun b => (number no vz).bind (fun c => .ok (some (a, b, c)))))
  | _ => .ok none

/-- orbex.rs 209-238. -/
def orbLine (mode : ParseMode) (no : Nat) (s : OSt) (parts : List Str) : R OSt :=
  match parts with
  | sat :: px :: py :: pz :: rest =>
    (number no px).bind (fun x => (number no py).bind (fun y => (number no pz).bind (fun z =>
      (velocity no rest).bind (fun v =>
      .ok { s with out := { s.out with orbits := s.out.orbits ++ [⟨sat, s.epoch, (x, y, z), v⟩] } }))))
  | _ => short mode no s

/-- orbex.rs 239-257. -/
def clkLine (mode : ParseMode) (no : Nat) (s : OSt) (parts : List Str) : R OSt :=
  match parts with
  | sat :: b :: _ =>
    (number no b).bind (fun x => .ok { s with out := { s.out with clocks := s.out.clocks ++ [⟨sat, s.epoch, x⟩] } })
  | _ => short mode no s

/-- orbex.rs 258-279. -/
def attLine (mode : ParseMode) (no : Nat) (s : OSt) (parts : List Str) : R OSt :=
  match parts with
  | sat :: pw :: px :: py :: pz :: _ =>
    (number no pw).bind (fun w => (number no px).bind (fun x => (number no py).bind (fun y => (number no pz).bind (fun z =>
      .ok { s with out := { s.out with attitudes := s.out.attitudes ++ [⟨sat, s.epoch, (w, x, y, z)⟩] } }))))
  | _ => short mode no s

/-- `line.starts_with(p)`. -/
def starts (p : String) (l : Str) : Bool := p.toList.isPrefixOf l

/-- orbex.rs 168-178: the epoch of a header, when it has three fields. -/
def headerEpoch (yo : Yo) (l : Str) : Option F64 :=
  match words (trim (l.dropWhile (· = '#'))) with
  | y :: d :: s :: _ =>
    some (yearDay yo ((parseInt i32Max y).getD 2000) ((parseUInt u32Max d).getD 1) ((parseFloat s).getD (.num 0)))
  | _ => none

/-- orbex.rs 145-282: one line; `none` for the end of the file. -/
def orbexLine (yo : Yo) (mode : ParseMode) (no : Nat) (s : OSt) (l : Str) : R (Option OSt) :=
  if starts "%=ORBEX" l then
    .ok (some (match words l with
      | _ :: v :: _ => { s with out := { s.out with version := v } }
      | _ => s))
  else if starts "%ENDORBEX" l ∨ starts "%EOF" l then .ok none
  else if starts "%" l then .ok (some s)
  else if starts "+" l ∨ starts "-" l then .ok (some s)
  else if starts "##" l then
    .ok (some (match headerEpoch yo l with
      | some e => { s with epoch := e }
      | none => s))
  else if starts "#ORB" l then .ok (some { s with sect := .orb })
  else if starts "#CLK" l then .ok (some { s with sect := .clk })
  else if starts "#ATT" l then .ok (some { s with sect := .att })
  else if starts "#" l then .ok (some { s with sect := .none })
  else if starts " " l = false then .ok (some s)
  else
    let parts := words l
    if parts = [] then .ok (some s)
    else
      (match s.sect with
        | .orb => orbLine mode no s parts
        | .clk => clkLine mode no s parts
        | .att => attLine mode no s parts
        | .none => .ok s).bind (fun s' => .ok (some s'))

def orbexLoop (yo : Yo) (mode : ParseMode) (no : Nat) (s : OSt) : List Str → R OSt
  | [] => .ok s
  | l :: ls =>
    (orbexLine yo mode no s l).bind (fun o =>
      match o with
      | some s' => orbexLoop yo mode (no + 1) s' ls
      | none => .ok s)

/-- orbex.rs 130-285 (`read_orbex`). -/
def readOrbex (yo : Yo) (mode : ParseMode) (text : Str) : R Orbex :=
  (orbexLoop yo mode 1 ⟨.none, .num 0, ⟨[], [], [], []⟩⟩ (lines text)).bind (fun s => .ok s.out)

/-! ### SINEX -/

/-- sinex.rs 293-299: the four digits of the year; the sum can leave the range of an `i32` (`none`, a panic with overflow checks). -/
def fullYear (yy : Int) : Option Int :=
  if yy = 0 then some 2000
  else if 80 ≤ yy then (if 1900 + yy ≤ i32Max then some (1900 + yy) else none)
  else some (2000 + yy)

/-- sinex.rs 285-307; `none` is a panic. -/
def sinexEpoch (yo : Yo) (s : Str) : Option F64 :=
  match splitChar ':' s with
  | [a, b, c] =>
    (fullYear ((parseInt i32Max a).getD 0)).map (fun year =>
      yearDay yo year ((parseUInt u32Max b).getD 1) ((parseFloat c).getD (.num 0)))
  | _ => some (.num 0)

/-- sinex.rs 149-156. -/
structure Row where
  x : Option F64
  y : Option F64
  z : Option F64
  vx : Option F64
  vy : Option F64
  vz : Option F64
  epoch : F64
  pt : Str
  soln : Str
deriving DecidableEq

/-- `EstRow::default()`. -/
def newRow : Row := ⟨none, none, none, none, none, none, .num 0, [], []⟩

/-- sinex.rs 75-88. -/
structure Station where
  code : Str
  pt : Str
  soln : Str
  epoch : F64
  pos : F64 × F64 × F64
  vel : Option (F64 × F64 × F64)
deriving DecidableEq

/-- sinex.rs 159-163. -/
inductive SBlock where
  | none | site | estimate
deriving DecidableEq

structure SSt where
  block : SBlock
  agency : Str
  rows : List (Str × Row)
deriving DecidableEq

/-- `HashMap::entry(code).or_default()` and the assignments that follow. -/
def upsert (f : Row → Row) (code : Str) : List (Str × Row) → List (Str × Row)
  | [] => [(code, f newRow)]
  | (c, r) :: t => if c = code then (c, f r) :: t else (c, r) :: upsert f code t

/-- sinex.rs 243-255. -/
def setRow (typ pt soln : Str) (epoch value : F64) (r : Row) : Row :=
  let r := { r with pt := pt, soln := soln, epoch := epoch }
  if typ = "STAX".toList then { r with x := some value }
  else if typ = "STAY".toList then { r with y := some value }
  else if typ = "STAZ".toList then { r with z := some value }
  else if typ = "VELX".toList then { r with vx := some value }
  else if typ = "VELY".toList then { r with vy := some value }
  else if typ = "VELZ".toList then { r with vz := some value }
  else r

/-- sinex.rs 210-256. -/
def estimateLine (yo : Yo) (mode : ParseMode) (no : Nat) (s : SSt) (l : Str) : R SSt :=
  match words l with
  | _ :: typ :: code :: pt :: soln :: epoch :: _ :: _ :: value :: _ =>
    match parseFloat value with
    | some v => (Res.orPanic (sinexEpoch yo epoch)).bind (fun e => .ok { s with rows := upsert (setRow typ pt soln e v) code s.rows })
    | none =>
      match mode with
      | .strict => .err (.number no)
      | .permissive => .ok s
  | _ => short mode no s

/-- sinex.rs 187-191. -/
def blockOf (name : Str) : SBlock :=
  if name = "SITE/ID".toList then .site else if name = "SOLUTION/ESTIMATE".toList then .estimate else .none

/-- sinex.rs 166-260: one line; `none` for the end of the file. -/
def sinexLine (yo : Yo) (mode : ParseMode) (no : Nat) (s : SSt) (l : Str) : R (Option SSt) :=
  if starts "%=SNX" l then
    .ok (some (match words l with
      | _ :: _ :: a :: _ => { s with agency := a }
      | _ => s))
  else if starts "%ENDSNX" l then .ok none
  else if starts "*" l ∨ starts "%" l then .ok (some s)
  else
    match l with
    | '+' :: name =>
      .ok (some { s with block := blockOf (trim name) })
    | '-' :: _ => .ok (some { s with block := .none })
    | _ =>
      match s.block with
      | .estimate => (estimateLine yo mode no s l).bind (fun s' => .ok (some s'))
      | _ => .ok (some s)

def sinexLoop (yo : Yo) (mode : ParseMode) (no : Nat) (s : SSt) : List Str → R SSt
  | [] => .ok s
  | l :: ls =>
    (sinexLine yo mode no s l).bind (fun o =>
      match o with
      | some s' => sinexLoop yo mode (no + 1) s' ls
      | none => .ok s)

/-- Three values or none. -/
def three : Option F64 → Option F64 → Option F64 → Option (F64 × F64 × F64)
  | some a, some b, some c => some (a, b, c)
  | _, _, _ => none

/-- sinex.rs 262-279. -/
def station (p : Str × Row) : Option Station :=
  (three p.2.x p.2.y p.2.z).map (fun pos => ⟨p.1, p.2.pt, p.2.soln, p.2.epoch, pos, three p.2.vx p.2.vy p.2.vz⟩)

/-- sinex.rs 143-282 (`read_sinex`): the agency and the stations. `order` is the order in which the map is walked. -/
def readSinex (yo : Yo) (order : List (Str × Row) → List (Str × Row)) (mode : ParseMode) (text : Str) : R (Str × List Station) :=
  (sinexLoop yo mode 1 ⟨.none, [], []⟩ (lines text)).bind (fun s => .ok (s.agency, (order s.rows).filterMap station))

/-! ### ANTEX -/

/-- antex.rs 60: north, east, up. -/
structure Pco where
  n : F64
  e : F64
  u : F64
deriving DecidableEq

/-- antex.rs 63. -/
abbrev Pcos := Str → Option Pco

/-- antex.rs 66. -/
abbrev Catalog := Str → Option Pcos

def put {α : Type} (m : Str → Option α) (k : Str) (v : α) : Str → Option α := fun k' => if k' = k then some v else m k'

structure ASt where
  cat : Catalog
  antenna : Option Str
  pcos : Pcos
  freq : Option Str

/-- antex.rs 77-78: label and body; `line.get(..)` fails when byte 60 is missing or inside a character. -/
def splitLine (l : Str) : Str × Str := (trim ((dropB l 60).getD []), (takeB l 60).getD [])

/-- antex.rs 75-112: one line. -/
def antexLine (s : ASt) (l : Str) : ASt :=
  let (label, body) := splitLine l
  if label = "START OF ANTENNA".toList then { s with antenna := none, pcos := fun _ => none, freq := none }
  else if label = "TYPE / SERIAL NO".toList then { s with antenna := some (trim body) }
  else if label = "START OF FREQUENCY".toList then { s with freq := (words body).head? }
  else if label = "NORTH / EAST / UP".toList then
    match s.freq with
    | some f =>
      match (words body).filterMap parseFloat with
      | [n, e, u] => { s with pcos := put s.pcos f ⟨n, e, u⟩ }
      | _ => s
    | none => s
  else if label = "END OF FREQUENCY".toList then { s with freq := none }
  else if label = "END OF ANTENNA".toList then
    match s.antenna with
    | some name => { s with cat := put s.cat name s.pcos, antenna := none, pcos := fun _ => none }
    | none => s
  else s

/-- antex.rs 68-114 (`read_antex`). -/
def readAntex (text : Str) : Catalog :=
  ((lines text).foldl antexLine ⟨fun _ => none, none, fun _ => none, none⟩).cat

/-- antex.rs 116-119. `&body[..60]` panics inside a character. -/
def headerLine (body : Str) (label : String) : Option Str :=
  if 60 < blen body then (takeB body 60).map (fun b => padRight 60 b ++ label.toList)
  else some (padRight 60 body ++ label.toList)

/-- All lines, or a panic. -/
def collect : List (Option Str) → Option (List Str)
  | [] => some []
  | none :: _ => none
  | some l :: t => (collect t).map (l :: ·)

/-- A map, as the list of its entries in any order. -/
abbrev Entries (α : Type) := List (Str × α)

/-- `keys().collect()`, `sort()`: `String` compares bytes, which is the order of the characters. -/
def sorted {α : Type} (m : Entries α) : Entries α := m.mergeSort (fun a b => decide (a.1 ≤ b.1))

/-- antex.rs 174-185: one frequency. -/
def freqLines (p : Str × Pco) : List (Option Str) :=
  [headerLine ("   ".toList ++ padRight 3 p.1) "START OF FREQUENCY",
   headerLine (padLeft ' ' 10 (Sp3.fmtF64 2 p.2.n) ++ (padLeft ' ' 10 (Sp3.fmtF64 2 p.2.e) ++ padLeft ' ' 10 (Sp3.fmtF64 2 p.2.u))) "NORTH / EAST / UP",
   headerLine ("   ".toList ++ padRight 3 p.1) "END OF FREQUENCY"]

/-- antex.rs 168-187: one antenna. -/
def antennaLines (a : Str × Entries Pco) : List (Option Str) :=
  [headerLine [] "START OF ANTENNA", headerLine a.1 "TYPE / SERIAL NO"] ++ ((sorted a.2).flatMap freqLines ++ [headerLine [] "END OF ANTENNA"])

/-- antex.rs 153-189 (`write_antex`); `none` is a panic. -/
def writeAntex (cat : Entries (Entries Pco)) : Option Str :=
  (collect ([headerLine "     1.4            G                  ".toList "ANTEX VERSION / SYST",
    headerLine "ANTEX                                                       ".toList "PCV TYPE / REFANT",
    headerLine [] "END OF HEADER"] ++ (sorted cat).flatMap antennaLines)).map unlines

end Verif.Igs
