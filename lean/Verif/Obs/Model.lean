import Verif.Rinex.Model

/-
Model of src/formats/rinex/obs.rs: reader and writer of receiver observation files. The external crates chrono and tempoch
are the parameters `Env` of `Verif.Sp3`. `f64` values are rationals, infinities or NaN; formatting is exact. A hash map is the
list of its pairs, in an arbitrary order; the texts of error messages are replaced by short keys. Failures of the input and output
devices are left out.
-/
namespace Verif.Obs
open Verif.Text Verif.Sp3 Verif.Rinex

/-- obs.rs 78, 159, 163, 304. -/
inductive Err where
  | eof
  | date
  | utc
  | toChrono
deriving DecidableEq, Repr

abbrev Map (K V : Type) := List (K × V)

section
variable {K V : Type} [DecidableEq K]

/-- `HashMap::get`. -/
def get (m : Map K V) (k : K) : Option V := (m.find? (fun p => decide (p.1 = k))).map (·.2)

/-- `HashMap::insert`. -/
def insert (m : Map K V) (k : K) (v : V) : Map K V := m.filter (fun p => !decide (p.1 = k)) ++ [(k, v)]

/-- `HashMap::keys`. -/
def keys (m : Map K V) : List K := m.map (·.1)
end

/-- obs.rs 42-47. -/
structure Epoch (T : Type) where
  time : T
  sats : Map Str (Map Str F64)
deriving DecidableEq

/-- obs.rs 51-62. -/
structure Obs (T : Type) where
  marker : Str
  approx : Option (F64 × F64 × F64)
  interval : Option F64
  types : Map Char (List Str)
  epochs : List (Epoch T)
deriving DecidableEq

/-- The header variables (obs.rs 69-72). -/
structure Hdr where
  marker : Str
  approx : Option (F64 × F64 × F64)
  interval : Option F64
  types : Map Char (List Str)
deriving DecidableEq

/-- A type list that is not complete yet: system, announced number, codes so far (obs.rs 109-125). -/
structure Pending where
  sys : Char
  count : Nat
  codes : List Str
deriving DecidableEq

/-! ### Reader -/

/-- obs.rs 118, 126-127: go on reading lines while codes are missing, else cut and insert. -/
def closeTypes (h : Hdr) (p : Pending) : Hdr × Option Pending :=
  if p.codes.length < p.count then (h, some p) else ({ h with types := insert h.types p.sys (p.codes.take p.count) }, none)

/-- obs.rs 105-117: the first line of a type list. -/
def typesLine (h : Hdr) (body : Str) : Res Err (Hdr × Option Pending) :=
  match body with
  | [] => .ok (h, none)
  | c :: _ =>
    if c.isAlpha then
      (Res.orPanic (slice body 1 6)).bind (fun n =>
      (Res.orPanic (dropB body 7)).bind (fun rest =>
        .ok (closeTypes h ⟨c, (parseUInt (2 ^ 64 - 1) (trim n)).getD 0, words rest⟩)))
    else .ok (h, none)

/-- obs.rs 84-96. -/
def approxLine (h : Hdr) (body : Str) : Hdr :=
  match (words body).filterMap parseFloat with
  | [x, y, z] => { h with approx := some (x, y, z) }
  | _ => h

/-- obs.rs 80-131: one header line that is not the last; the second component is an unfinished type list. -/
def headerLine (h : Hdr) (label body : Str) : Res Err (Hdr × Option Pending) :=
  if label = "MARKER NAME".toList then .ok ({ h with marker := trim body }, none)
  else if label = "APPROX POSITION XYZ".toList then .ok (approxLine h body, none)
  else if label = "INTERVAL".toList then .ok ({ h with interval := ((words body).head?).bind parseFloat }, none)
  else if label = "SYS / # / OBS TYPES".toList then typesLine h body
  else .ok (h, none)

/-- `line.get(60..).unwrap_or("").trim()` (obs.rs 80). -/
def labelOf (line : Str) : Str := trim ((dropB line 60).getD [])

/-- `line.get(..60).unwrap_or("")` (obs.rs 81, 123). -/
def bodyOf (line : Str) : Str := (takeB line 60).getD []

/-- obs.rs 75-132: the header. The inner loop over continuation lines is the pending list; at the end of the input both
loops end in the error. The result is the header and the lines after it. -/
def headerLoop : Hdr → Option Pending → List Str → Res Err (Hdr × List Str)
  | _, _, [] => .err .eof
  | h, some p, l :: ls =>
    let r := closeTypes h { p with codes := p.codes ++ words (bodyOf l) }
    headerLoop r.1 r.2 ls
  | h, none, l :: ls =>
    if labelOf l = "END OF HEADER".toList then .ok (h, ls)
    else (headerLine h (labelOf l) (bodyOf l)).bind (fun r => headerLoop r.1 r.2 ls)

/-- obs.rs 187-200: the values of one satellite. -/
def readCells (payload : Str) : Nat → List Str → Map Str F64 → Res Err (Map Str F64)
  | _, [], m => .ok m
  | i, ty :: ts, m =>
    if blen payload ≤ i * 16 then .ok m
    else (Res.orPanic (slice payload (i * 16) (min (i * 16 + 14) (blen payload)))).bind (fun raw =>
      match parseFloat (trim raw) with
      | some v => readCells payload (i + 1) ts (insert m ty v)
      | none => readCells payload (i + 1) ts m)

/-- obs.rs 173-201: one line of an epoch. An empty cell does not parse as a number. -/
def satLine (types : Map Char (List Str)) (sats : Map Str (Map Str F64)) (line : Str) : Res Err (Map Str (Map Str F64)) :=
  let row := trimEnd line
  if blen row < 3 then .ok sats
  else
    (Res.orPanic (takeB row 3)).bind (fun sat =>
    (Res.orPanic (dropB row 3)).bind (fun payload =>
    (readCells payload 0 ((get types (sat.head?.getD ' ')).getD []) []).bind (fun vals => .ok (insert sats sat vals))))

variable {T : Type}

/-- obs.rs 149-165: time and number of satellites of an epoch line; `none` for other lines. -/
def epochLine (env : Env T) (line : Str) : Res Err (Option (T × Nat)) :=
  let trimmed := trimEnd line
  if trimmed.head? = some '>' then
    match words trimmed with
    | _ :: y :: mo :: d :: h :: mi :: s :: _ :: n :: _ =>
      let year := (i32 y).getD 0
      let month := (u32 mo).getD 0
      let day := (u32 d).getD 0
      let second := (parseFloat s).getD (.num 0)
      let whole := asU32 second
      let c : Civil := ⟨year, month, day, (u32 h).getD 0, (u32 mi).getD 0, whole, nanosOf second whole⟩
      if env.dateOk year month day && timeOk c.hour c.minute c.second c.nano then
        (Res.ofOption .utc (env.ofChrono c)).bind (fun t => .ok (some (t, (parseUInt (2 ^ 64 - 1) n).getD 0)))
      else .err .date
    | _ => .ok none
  else .ok none

/-- The epoch being read: its time, its satellites so far, and the number of lines still to read. -/
structure Open (T : Type) where
  time : T
  sats : Map Str (Map Str F64)
  left : Nat

/-- obs.rs 168, 203: go on with the epoch or finish it. -/
def settle (es : List (Epoch T)) (o : Open T) : List (Epoch T) × Option (Open T) :=
  if o.left = 0 then (es ++ [⟨o.time, o.sats⟩], none) else (es, some o)

/-- obs.rs 136-207. The inner loop is the open epoch. -/
def bodyLoop (env : Env T) (types : Map Char (List Str)) : List (Epoch T) → Option (Open T) → List Str → Res Err (List (Epoch T))
  | es, none, [] => .ok es
  | es, some o, [] => .ok (es ++ [⟨o.time, o.sats⟩])
  | es, some o, l :: ls =>
    (satLine types o.sats l).bind (fun sats =>
      let r := settle es ⟨o.time, sats, o.left - 1⟩
      bodyLoop env types r.1 r.2 ls)
  | es, none, l :: ls =>
    (epochLine env l).bind (fun e =>
      match e with
      | none => bodyLoop env types es none ls
      | some (t, n) =>
        let r := settle es ⟨t, [], n⟩
        bodyLoop env types r.1 r.2 ls)

/-- obs.rs 65-216. -/
def readObs (env : Env T) (text : Str) : Res Err (Obs T) :=
  (headerLoop ⟨[], none, none, []⟩ none (rawLines text)).bind (fun r =>
  (bodyLoop env r.1.types [] none r.2).bind (fun es => .ok ⟨r.1.marker, r.1.approx, r.1.interval, r.1.types, es⟩))

/-! ### Writer -/

/-- obs.rs 260-263. -/
def hline (body label : Str) : Res Err Str :=
  (if 60 < blen body then Res.orPanic (takeB body 60) else .ok body).bind (fun b => .ok (padRight 60 b ++ label))

/-- obs.rs 283-292: the bodies of the lines of a type list. -/
def typeBodies : Nat → Str → List Str → List Str
  | _, body, [] => [body]
  | i, body, t :: ts =>
    if 0 < i ∧ i % 13 = 0 then body :: typeBodies (i + 1) (List.replicate 6 ' ' ++ ' ' :: padRight 3 t) ts
    else typeBodies (i + 1) (body ++ ' ' :: padRight 3 t) ts

/-- Every one of the lines, in order. -/
def hlines (label : Str) : List Str → Res Err (List Str)
  | [] => .ok []
  | b :: bs => (hline b label).bind (fun l => (hlines label bs).bind (fun ls => .ok (l :: ls)))

/-- obs.rs 279-293, for the systems in the order given. -/
def typeLines (types : Map Char (List Str)) : List Char → Res Err (List Str)
  | [] => .ok []
  | s :: ss =>
    (hlines "SYS / # / OBS TYPES".toList
      (typeBodies 0 (s :: padLeft ' ' 5 (natStr ((get types s).getD []).length)) ((get types s).getD []))).bind (fun ls =>
    (typeLines types ss).bind (fun rest => .ok (ls ++ rest)))

/-- `char` order. -/
def charLe (a b : Char) : Bool := decide (a.toNat ≤ b.toNat)

/-- `String` order: by bytes, which is by scalar values. -/
def strLe : Str → Str → Bool
  | [], _ => true
  | _ :: _, [] => false
  | a :: s, b :: t => decide (a.toNat < b.toNat) || (decide (a.toNat = b.toNat) && strLe s t)

/-- obs.rs 270-278. -/
def approxLines : Option (F64 × F64 × F64) → Res Err (List Str)
  | some (x, y, z) =>
    hlines "APPROX POSITION XYZ".toList [padLeft ' ' 14 (fmtF64 4 x) ++ (padLeft ' ' 14 (fmtF64 4 y) ++ padLeft ' ' 14 (fmtF64 4 z))]
  | none => .ok []

/-- obs.rs 294-297. -/
def intervalLines : Option F64 → Res Err (List Str)
  | some v => hlines "INTERVAL".toList [padLeft ' ' 10 (fmtF64 3 v)]
  | none => .ok []

/-- obs.rs 264-298. -/
def headerLines (o : Obs T) : Res Err (List Str) :=
  (hline "     3.04           OBSERVATION DATA    M (MIXED)".toList "RINEX VERSION / TYPE".toList).bind (fun l1 =>
  (hline o.marker "MARKER NAME".toList).bind (fun l2 =>
  (approxLines o.approx).bind (fun l3 =>
  (typeLines o.types ((keys o.types).mergeSort charLe)).bind (fun l4 =>
  (intervalLines o.interval).bind (fun l5 =>
  (hline [] "END OF HEADER".toList).bind (fun l6 => .ok (l1 :: l2 :: (l3 ++ (l4 ++ (l5 ++ [l6]))))))))))

/-- obs.rs 305-316. -/
def epochText (c : Civil) (n : Nat) : Str :=
  "> ".toList ++ (padLeft ' ' 4 (intStr c.year) ++ ' ' :: (two c.month ++ ' ' :: (two c.day ++ ' ' :: (two c.hour ++ ' ' :: (two c.minute ++ ' ' ::
    (padLeft ' ' 10 (fmtFixed 7 ((c.second : ℚ) + (c.nano : ℚ) / 10 ^ 9)) ++ "  0 ".toList ++ padLeft ' ' 2 (natStr n)))))))

/-- obs.rs 324-329. -/
def cellText (vals : Map Str F64) (ty : Str) : Str :=
  match get vals ty with
  | some v => padLeft ' ' 14 (fmtF64 3 v) ++ [' ', ' ']
  | none => List.replicate 16 ' '

/-- obs.rs 320-330. -/
def rowText (types : Map Char (List Str)) (vals : Map Str F64) (sat : Str) : Str :=
  trimEnd (padRight 3 sat ++ ((get types (sat.head?.getD ' ')).getD []).flatMap (cellText vals))

/-- obs.rs 317-331. -/
def epochRows (types : Map Char (List Str)) (sats : Map Str (Map Str F64)) : List Str :=
  ((keys sats).mergeSort strLe).map (fun sat => rowText types ((get sats sat).getD []) sat)

/-- obs.rs 300-332. -/
def bodyLines (env : Env T) (types : Map Char (List Str)) : List (Epoch T) → Res Err (List Str)
  | [] => .ok []
  | e :: es =>
    (Res.ofOption .toChrono (env.toChrono e.time)).bind (fun c =>
    (bodyLines env types es).bind (fun rest => .ok (epochText c e.sats.length :: (epochRows types e.sats ++ rest))))

/-- obs.rs 259-334. -/
def writeObs (env : Env T) (o : Obs T) : Res Err Str :=
  (headerLines o).bind (fun hs => (bodyLines env o.types o.epochs).bind (fun bs => .ok (unlines (hs ++ bs))))

end Verif.Obs
