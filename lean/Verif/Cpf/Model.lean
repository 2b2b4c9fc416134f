import Verif.Sp3.Model
import Verif.Rinex.Model

/-
Model of src/formats/ilrs/cpf.rs: the reader and the writer of CPF files. chrono and tempoch are the parameters `Sp3.Env` and the two
functions below; `f64` values are rationals, infinities or NaN, with exact arithmetic. The texts of error messages are short keys.
-/
namespace Verif.Cpf
open Verif.Text Verif.Sp3 Verif.Rinex

inductive CpfErr where
  | missing (line : Nat) (what : Str)
  | mjd
  | date
  | utc
deriving DecidableEq, Repr

/-- The external functions: `ModifiedJulianDate::<UTC>::try_new` succeeds (line 437), and the days of a date since 1858-11-17 (line 328). -/
structure Days where
  mjdOk : Int → Bool
  since : Int → Nat → Nat → Int

variable {T : Type}

/-- cpf.rs 103-109. -/
structure Entry (T : Type) where
  time : T
  x : F64
  y : F64
  z : F64

/-- cpf.rs 184-206; `parse_mode` is left out. -/
structure File (T : Type) where
  source : Str := []
  version : Str := []
  target : Str := []
  cospar : Str := []
  sic : Int := 0
  norad : Str := []
  frame : Str := []
  step : F64 := .num 0
  entries : List (Entry T) := []

def scale (k : ℚ) : F64 → F64
  | .num q => .num (q * k)
  | other => other

/-- One `i64` operation: with overflow checks it panics, without it wraps. -/
def i64 {ε : Type} (ck : Bool) (z : Int) : Res ε Int :=
  if -2 ^ 63 ≤ z ∧ z < 2 ^ 63 then .ok z else if ck then .panic else .ok ((z + 2 ^ 63) % 2 ^ 64 - 2 ^ 63)

/-- cpf.rs 462-474. Divisions round towards zero. Only the first three operations can leave the range: the others are smaller. -/
def ymd {ε : Type} (ck : Bool) (mjd : Int) : Res ε (Int × Int × Int) :=
  (i64 ck (mjd + 2400001)).bind (fun jd => (i64 ck (jd + 68569)).bind (fun l => (i64 ck (4 * l)).bind (fun l4 =>
    let n := l4.tdiv 146097
    let l2 := l - (146097 * n + 3).tdiv 4
    let i := (4000 * (l2 + 1)).tdiv 1461001
    let l3 := l2 - (1461 * i).tdiv 4 + 31
    let j := (80 * l3).tdiv 2447
    let day := l3 - (2447 * j).tdiv 80
    let l4 := j.tdiv 11
    .ok (100 * (n - 49) + i + l4, j + 2 - 12 * l4, day))))

/-- cpf.rs 458-490. -/
def buildEpoch (env : Env T) (ck : Bool) (mjd : Int) (sod : F64) : Res CpfErr T :=
  (ymd ck mjd).bind (fun (y, m, d) =>
    let whole := asU32 sod
    let nanos := nanosOf sod whole
    let hour := whole / 3600
    let minute := (whole % 3600) / 60
    let second := whole % 60
    if env.dateOk (wrapI32 y) (wrapU32 m) (wrapU32 d) && timeOk hour minute second nanos then
      Res.ofOption .utc (env.ofChrono ⟨wrapI32 y, wrapU32 m, wrapU32 d, hour, minute, second, nanos⟩)
    else .err .date)

/-- A field that may be absent or unreadable. -/
def fieldAt {α : Type} (rest : List Str) (i : Nat) (parse : Str → Option α) : Option α := rest[i]?.bind parse

/-- cpf.rs 392-447: a position record; `rest` are the tokens after the tag. -/
def position (env : Env T) (days : Days) (ck : Bool) (no : Nat) (rest : List Str) : Res CpfErr (Entry T) :=
  match fieldAt rest 1 (parseInt (2 ^ 63 - 1)), fieldAt rest 2 parseFloat, fieldAt rest 4 parseFloat, fieldAt rest 5 parseFloat,
    fieldAt rest 6 parseFloat with
  | some m, some s, some x, some y, some z =>
    if days.mjdOk m then
      (buildEpoch env ck m s).bind (fun t => .ok ⟨t, scale (1 / 1000) x, scale (1 / 1000) y, scale (1 / 1000) z⟩)
    else .err .mjd
  | none, _, _, _, _ => .err (.missing no "MJD".toList)
  | _, none, _, _, _ => .err (.missing no "SOD".toList)
  | _, _, _, _, _ => .err (.missing no "X/Y/Z".toList)

/-- cpf.rs 358-366. -/
def lineH1 (f : File T) (rest : List Str) : File T :=
  { f with version := rest[1]?.getD f.version, source := rest[2]?.getD f.source }

/-- cpf.rs 368-388. -/
def lineH2 (f : File T) (toks : List Str) : File T :=
  { f with
    cospar := toks.head?.getD f.cospar
    target := toks.head?.getD f.target
    sic := match toks[1]? with | some s => (i32 s).getD 0 | none => f.sic
    norad := toks[2]?.getD f.norad
    step := match toks[15]? with | some s => (parseFloat s).getD (.num 0) | none => f.step
    frame := toks.getLast?.getD f.frame }

/-- cpf.rs 345-452: `no` is the number of the line before. -/
def loop (env : Env T) (days : Days) (ck strict : Bool) : List Str → Nat → File T → Res CpfErr (File T)
  | [], _, f => .ok f
  | l :: ls, no, f =>
    match words (trimEnd l) with
    | [] => loop env days ck strict ls (no + 1) f
    | tag :: rest =>
      if tag = "H1".toList then loop env days ck strict ls (no + 1) (lineH1 f rest)
      else if tag = "H2".toList then loop env days ck strict ls (no + 1) (lineH2 f rest)
      else if tag = "10".toList then
        match position env days ck (no + 1) rest with
        | .ok e => loop env days ck strict ls (no + 1) { f with entries := f.entries ++ [e] }
        | .err (.missing n w) => if strict then .err (.missing n w) else loop env days ck strict ls (no + 1) f
        | .err e => .err e
        | .panic => .panic
      else if tag = "99".toList then .ok f
      else loop env days ck strict ls (no + 1) f

/-- cpf.rs 335-455. -/
def parseCpf (env : Env T) (days : Days) (ck strict : Bool) (text : Str) : Res CpfErr (File T) :=
  loop env days ck strict (lines text) 0 {}

/-! ### Writer -/

/-- cpf.rs 320-331. -/
def mjdSod (days : Days) (c : Civil) : Int × ℚ :=
  (days.since c.year c.month c.day, ((c.hour * 3600 + c.minute * 60 + c.second : Nat) : ℚ) + (c.nano : ℚ) / 10 ^ 9)

/-- cpf.rs 297-308. -/
def posLine (days : Days) (c : Civil) (e : Entry T) : Str :=
  let p := mjdSod days c
  "10 1 ".toList ++ (intStr p.1 ++ ' ' :: (fmtF64 3 (.num p.2) ++ " 0 ".toList ++ (fmtF64 3 (scale 1000 e.x) ++ ' ' ::
    (fmtF64 3 (scale 1000 e.y) ++ ' ' :: fmtF64 3 (scale 1000 e.z)))))

/-- cpf.rs 296-309: a time that chrono cannot represent panics (line 324). -/
def posLines (env : Env T) (days : Days) : List (Entry T) → Res CpfErr (List Str)
  | [] => .ok []
  | e :: es =>
    (Res.orPanic (env.toChrono e.time)).bind (fun c => (posLines env days es).bind (fun ls => .ok (posLine days c e :: ls)))

/-- cpf.rs 291-294. -/
def stepStr (step : F64) : Str :=
  match step with
  | .num q => if 0 < q then natStr (asU64 step) else "60".toList
  | .inf false => natStr (asU64 step)
  | _ => "60".toList

/-- cpf.rs 280. -/
def h1Line (f : File T) : Str := "H1 CPF ".toList ++ (f.version ++ ' ' :: (f.source ++ " 2024 01 01 00 1".toList))

/-- cpf.rs 282-296. -/
def h2Line (f : File T) : Str :=
  "H2 ".toList ++ ((if f.cospar = [] then f.target else f.cospar) ++ ' ' :: (intStr f.sic ++ ' ' ::
    ((if f.norad = [] then "0".toList else f.norad) ++ " 2024 01 01 00 00 00 2024 01 01 01 00 00 ".toList ++
      (stepStr f.step ++ " 0 ".toList ++ f.frame))))

/-- cpf.rs 278-314. -/
def writeCpf (env : Env T) (days : Days) (f : File T) : Res CpfErr Str :=
  (posLines env days f.entries).bind (fun ls => .ok (unlines (h1Line f :: h2Line f :: (ls ++ ["99".toList]))))

end Verif.Cpf
