import Verif.Sp3.Model
import Mathlib.Data.Int.Log

/-
Model of src/formats/rinex/nav.rs: the reader of GPS navigation records, strict and permissive, and the writer.
The external crates chrono and tempoch are the parameters `Env` of `Verif.Sp3`. `f64` values are rationals,
infinities or NaN; formatting is exact. The texts of error messages are replaced by short keys.
-/
namespace Verif.Rinex
open Verif.Text Verif.Sp3

/-- The error values, by the place where they arise. -/
inductive NavErr where
  | noHeader
  | truncated (line : Nat)
  | prn (line : Nat)
  | tokens (line : Nat)
  | int (line : Nat) (what : Str)
  | float (line : Nat) (what : Str)
  | date (line : Nat)
  | few (line : Nat)
  | epoch
deriving DecidableEq, Repr

abbrev N := Res NavErr

/-- nav.rs 40-89. -/
structure Rec (T : Type) where
  prn : Nat
  toc : T
  af0 : F64
  af1 : F64
  af2 : F64
  iode : F64
  crs : F64
  deltaN : F64
  m0 : F64
  cuc : F64
  e : F64
  cus : F64
  sqrtA : F64
  toe : F64
  cic : F64
  omega0 : F64
  cis : F64
  i0 : F64
  crc : F64
  omega : F64
  omegaDot : F64
  idot : F64
deriving DecidableEq

/-! ### Reader -/

/-- nav.rs 434-445: `D` is `E`. -/
def dToE (c : Char) : Char := if c = 'D' then 'E' else if c = 'd' then 'e' else c

def parseD (line : Nat) (what : String) (s : Str) : N F64 :=
  Res.ofOption (.float line what.toList) (parseFloat (s.map dToE))

/-- nav.rs 447-451. -/
def collectFloats (line : Nat) : List Str → N (List F64)
  | [] => .ok []
  | w :: ws => (parseD line "body" w).bind (fun v => (collectFloats line ws).bind (fun vs => .ok (v :: vs)))

/-- nav.rs 333-347. -/
def parseBody (strict : Bool) (line expected : Nat) (text : Str) : N (List F64) :=
  (collectFloats line (words text)).bind (fun vals =>
    if vals.length < expected ∧ strict = true then .err (.few line) else .ok vals)

/-- `x as u32` of an `i64` or `u64`: wraps. -/
def wrapU32 (z : Int) : Nat := (z % 2 ^ 32).toNat

/-- `x as i32` of an `i64`: wraps. -/
def wrapI32 (z : Int) : Int := (z + 2 ^ 31) % 2 ^ 32 - 2 ^ 31

/-- `x as u64` of an `f64`: towards zero, saturating, NaN to zero. -/
def asU64 : F64 → Nat
  | .num q => min ⌊q⌋.toNat (2 ^ 64 - 1)
  | .inf false => 2 ^ 64 - 1
  | .inf true => 0
  | .nan => 0

/-- nav.rs 283-291. -/
def parseI64 (line : Nat) (what : String) (s : Str) : N Int := Res.ofOption (.int line what.toList) (parseInt (2 ^ 63 - 1) s)

variable {T : Type}

/-- nav.rs 298-315. -/
def toc (env : Env T) (y mo d h mi : Int) (sec : F64) (line : Nat) : N T :=
  let whole := asU64 sec
  let nanos := nanosOf sec whole
  let c : Civil := ⟨wrapI32 y, wrapU32 mo, wrapU32 d, wrapU32 h, wrapU32 mi, wrapU32 whole, nanos⟩
  if env.dateOk c.year c.month c.day && timeOk c.hour c.minute c.second c.nano then Res.ofOption (.date line) (env.ofChrono c)
  else .err (.date line)

/-- nav.rs 271-320. -/
def clockLine (env : Env T) (line : Nat) (rest : Str) : N (T × F64 × F64 × F64) :=
  match words rest with
  | y :: mo :: d :: h :: mi :: s :: a0 :: a1 :: a2 :: _ =>
    (parseI64 line "year" y).bind (fun y => (parseI64 line "month" mo).bind (fun mo => (parseI64 line "day" d).bind (fun d =>
    (parseI64 line "hour" h).bind (fun h => (parseI64 line "minute" mi).bind (fun mi => (parseD line "second" s).bind (fun s =>
    (toc env y mo d h mi s line).bind (fun t => (parseD line "af0" a0).bind (fun a0 => (parseD line "af1" a1).bind (fun a1 =>
    (parseD line "af2" a2).bind (fun a2 => .ok (t, a0, a1, a2)))))))))))
  | _ => .err (.tokens line)

/-- `v[i]`. -/
def idx (v : List F64) (i : Nat) : N F64 := Res.orPanic v[i]?

/-- nav.rs 249-267. -/
def parsePrn (line : Nat) (l0 : Str) : N Nat :=
  (Res.orPanic (if l0.head? = some 'G' then slice l0 1 3 else slice l0 0 3)).bind (fun t =>
  match parseUInt 255 (trim t) with
  | some p => if 0 < p then .ok p else .err (.prn line)
  | none => .err (.prn line))

/-- nav.rs 401-424. -/
def build (prn : Nat) (clock : T × F64 × F64 × F64) (v1 v2 v3 v4 v5 : List F64) : N (Rec T) :=
  (idx v1 0).bind (fun a => (idx v1 1).bind (fun b => (idx v1 2).bind (fun c => (idx v1 3).bind (fun d =>
  (idx v2 0).bind (fun e => (idx v2 1).bind (fun f => (idx v2 2).bind (fun g => (idx v2 3).bind (fun h =>
  (idx v3 0).bind (fun i => (idx v3 1).bind (fun j => (idx v3 2).bind (fun k => (idx v3 3).bind (fun l =>
  (idx v4 0).bind (fun m => (idx v4 1).bind (fun n => (idx v4 2).bind (fun o => (idx v4 3).bind (fun p =>
  (idx v5 0).bind (fun q =>
    .ok ⟨prn, clock.1, clock.2.1, clock.2.2.1, clock.2.2.2, a, b, c, d, e, f, g, h, i, j, k, l, m, n, o, p, q⟩)))))))))))))))))

/-- nav.rs 248-424: one record, `body` are the lines after the first. An error is returned in strict mode, and drops the
record in permissive mode. Lines 6 and 7 are not looked at. -/
def parseRec (env : Env T) (strict : Bool) (line : Nat) (l0 : Str) (body : List Str) : N (Rec T) :=
  (parsePrn line l0).bind (fun prn =>
  (Res.orPanic (dropB l0 3)).bind (fun rest =>
  (clockLine env line rest).bind (fun clock =>
  (parseBody strict (line + 1) 4 (body.getD 0 [])).bind (fun v1 => (parseBody strict (line + 2) 4 (body.getD 1 [])).bind (fun v2 =>
  (parseBody strict (line + 3) 4 (body.getD 2 [])).bind (fun v3 => (parseBody strict (line + 4) 4 (body.getD 3 [])).bind (fun v4 =>
  (parseBody strict (line + 5) 1 (body.getD 4 [])).bind (fun v5 => build prn clock v1 v2 v3 v4 v5))))))))

/-- nav.rs 231: the line begins a GPS record (`l0.as_bytes()[0].is_ascii_digit()`). -/
def starts (l0 : Str) : Bool :=
  !decide (blen l0 < 4) && (decide (l0.head? = some 'G') || (l0.head?.map Char.isDigit).getD false)

/-- nav.rs 225-430. `skip` lines of the current record are still to be passed over; `line` is the number of the next line. -/
def loop (env : Env T) (strict : Bool) : Nat → Nat → List Str → N (List (Rec T))
  | _, _, [] => .ok []
  | skip + 1, line, _ :: rest => loop env strict skip (line + 1) rest
  | 0, line, l0 :: rest =>
    if starts l0 = false then loop env strict 0 (line + 1) rest
    else if rest.length < 7 then (if strict then .err (.truncated line) else .ok [])
    else match parseRec env strict line l0 rest with
      | .ok r => (loop env strict 7 (line + 1) rest).bind (fun rs => .ok (r :: rs))
      | .err e => if strict then .err e else loop env strict 7 (line + 1) rest
      | .panic => .panic

/-- `str::contains`. -/
def containsStr (p : Str) : Str → Bool
  | [] => p.isPrefixOf []
  | c :: t => p.isPrefixOf (c :: t) || containsStr p t

/-- nav.rs 212-217: the lines after the header, and their first number. -/
def afterHeader : Nat → List Str → Option (Nat × List Str)
  | _, [] => none
  | no, l :: rest => if containsStr "END OF HEADER".toList l then some (no + 1, rest) else afterHeader (no + 1) rest

/-- nav.rs 206-431. -/
def parseNav (env : Env T) (strict : Bool) (text : Str) : N (List (Rec T)) :=
  match afterHeader 1 (lines text) with
  | some (no, rest) => loop env strict 0 no rest
  | none => if strict then .err .noHeader else .ok []

/-! ### Writer -/

/-- The decimal exponent and the thirteen digits of `{:.12E}`. -/
def sciParts (q : ℚ) : Int × Nat :=
  if q = 0 then (0, 0)
  else
    let e := Int.log 10 |q|
    let m := roundHalfEven (|q| / (10 : ℚ) ^ e * 10 ^ 12)
    if m = 10 ^ 13 then (e + 1, 10 ^ 12) else (e, m)

/-- `{:.12E}` with `D` for `E`. -/
def sciStr (q : ℚ) : Str :=
  (if q < 0 then ['-'] else []) ++ (fixedStr 12 (sciParts q).2 ++ 'D' :: intStr (sciParts q).1)

/-- nav.rs 455-461. -/
def fmtD : F64 → Str
  | .num q => padLeft ' ' 19 (sciStr q)
  | _ => "0.000000000000000D+00".toList

/-- `{:0w}` of a signed integer. -/
def padInt (w : Nat) (n : Int) : Str :=
  if n < 0 then '-' :: padLeft '0' (w - 1) (natStr n.natAbs) else padLeft '0' w (natStr n.natAbs)

def two (n : Nat) : Str := padLeft '0' 2 (natStr n)

/-- nav.rs 518-533. -/
def firstLine (r : Rec T) (c : Civil) : Str :=
  'G' :: (two r.prn ++ ' ' :: (padInt 4 c.year ++ ' ' :: (two c.month ++ ' ' :: (two c.day ++ ' ' :: (two c.hour ++ ' ' :: (two c.minute ++ ' ' ::
    (two (asU32 (.num ((c.second : ℚ) + (c.nano : ℚ) / 10 ^ 9))) ++ (fmtD r.af0 ++ (fmtD r.af1 ++ fmtD r.af2)))))))))

/-- nav.rs 534-543. -/
def cont (a b c d : F64) : Str := "    ".toList ++ (fmtD a ++ (fmtD b ++ (fmtD c ++ fmtD d)))

/-- nav.rs 513-567: the lines of one record. -/
def recLines (r : Rec T) (c : Civil) : List Str :=
  [firstLine r c, cont r.iode r.crs r.deltaN r.m0, cont r.cuc r.e r.cus r.sqrtA, cont r.toe r.cic r.omega0 r.cis, cont r.i0 r.crc r.omega r.omegaDot,
   cont r.idot (.num 0) (.num 0) (.num 0), cont (.num 0) (.num 0) (.num 0) (.num 0), cont (.num 0) (.num 0) (.num 0) (.num 0)]

def allLines (env : Env T) : List (Rec T) → N (List Str)
  | [] => .ok []
  | r :: rs => (Res.ofOption .epoch (env.toChrono r.toc)).bind (fun c => (allLines env rs).bind (fun ls => .ok (recLines r c ++ ls)))

/-- nav.rs 501-569. The header lines are constant (`{:<60}` and the label). -/
def writeNav (env : Env T) (rs : List (Rec T)) : N Str :=
  (allLines env rs).bind (fun ls => .ok (unlines
    ((padRight 60 "     3.04           N: GNSS NAV DATA    M (Mixed)".toList ++ "RINEX VERSION / TYPE".toList) ::
     (padRight 60 [] ++ "END OF HEADER".toList) :: ls)))

end Verif.Rinex
