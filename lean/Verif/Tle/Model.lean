import Verif.Text.Model
import Mathlib.Data.Int.Log

/-!
Model of the TLE reader and writer: /repo/src/formats/tle/{parse,tle,builder}.rs.

* Strings are lists of Unicode scalar values, sliced at UTF-8 byte offsets (`Verif.Text`).
* `f64` values are exact rationals; text for infinities and NaN is kept apart (`F64`). Rounding to
  53 bits is not modelled.
* Error values keep their kind only, not the quoted raw text.
* `chrono::DateTime<Utc>` is (year, day of year, nanosecond of day). Whether `tempoch` can represent
  an instant (`Time::<UTC>::try_from_chrono`) is the parameter `utcOk`; `try_to_chrono` of a stored
  instant is assumed to give back the same `DateTime`.
-/
namespace Verif.Tle
open Verif.Text

/-- /repo/src/formats/tle/error.rs:28-127 (variants used here, payloads dropped except sizes). -/
inductive TleError where
  | badLength (line got : Nat)
  | badLeadingChar (line : Nat)
  | badChecksum (line stated computed : Nat)
  | mismatchedSatelliteNumber (l1 l2 : Nat)
  | invalidNumber
  | invalidAlpha5
  | invalidEpoch
  | epochConversion
  | invalidClassification
deriving DecidableEq, Repr

/-- `b.is_ascii_digit()` on a byte. -/
def isDigitB (b : UInt8) : Bool := 48 ≤ b.toNat && b.toNat ≤ 57

/-- parse.rs:75-85 `compute_checksum`; the `u32` sum of at most `9 * len` cannot overflow for any
string shorter than 4 * 10^8 bytes, so it is a natural number. -/
def computeChecksum (s : Str) : Nat :=
  ((utf8 s).foldl (fun sum b =>
    if isDigitB b then sum + (b.toNat - 48) else if b.toNat = 45 then sum + 1 else sum) 0) % 10

/-- parse.rs:28-34. -/
def lineNo (s : Str) : Nat :=
  if s.head? = some '1' then 1 else if s.head? = some '2' then 2 else 0

/-- `bytes[i]`; `none` is the index panic. -/
def byteAt (s : Str) (i : Nat) : Option UInt8 := (utf8 s)[i]?

/-- parse.rs:27-60 `validate_tle_checksum`. -/
def validateChecksum (line : Str) : Res TleError Unit :=
  if blen line ≠ 69 then .err (.badLength (lineNo line) (blen line))
  else do
    let stated ← Res.orPanic (byteAt line 68)
    let body ← Res.orPanic (takeB line 68)
    let computed := computeChecksum body
    if ¬ isDigitB stated then .err (.badChecksum (lineNo line) 0 computed)
    else if stated.toNat - 48 ≠ computed then
      .err (.badChecksum (lineNo line) (stated.toNat - 48) computed)
    else .ok ()

/-- `u32::MAX`, `u64::MAX`, `i32::MAX`, `i64::MAX`. -/
def u32Max : Nat := 2 ^ 32 - 1
def u64Max : Nat := 2 ^ 64 - 1
def i32Max : Nat := 2 ^ 31 - 1
def i64Max : Nat := 2 ^ 63 - 1

/-- tle.rs:63-68: the leading letter's value. -/
def letterValue (b : Nat) : Option Nat :=
  if 65 ≤ b ∧ b ≤ 72 then some (b - 65 + 10)
  else if 74 ≤ b ∧ b ≤ 78 then some (b - 74 + 18)
  else if 80 ≤ b ∧ b ≤ 90 then some (b - 80 + 23)
  else none

/-- tle.rs:46-77 `SatelliteNumber::parse`. -/
def parseSat (field : Str) : Res TleError Nat :=
  let s := trimStart field
  if s = [] ∨ blen s > 5 then .err .invalidAlpha5
  else do
    let first ← Res.orPanic (byteAt s 0)
    if isDigitB first then
      Res.ofOption .invalidNumber (parseUInt u32Max s)
    else
      match letterValue first.toNat with
      | none => .err .invalidAlpha5
      | some value => do
        let tail ← Res.orPanic (dropB s 1)
        if blen tail ≠ 4 ∨ ¬ (utf8 tail).all isDigitB then .err .invalidAlpha5
        else do
          let n ← Res.ofOption .invalidAlpha5 (parseUInt u32Max tail)
          .ok (value * 10000 + n)

/-- tle.rs:92-111 `SatelliteNumber::format_alpha5`; `unreachable!()` is a panic. -/
def formatAlpha5 (n : Nat) : Res TleError Str :=
  if n < 100000 then .ok (padLeft '0' 5 (natStr n))
  else if 340000 ≤ n then .err .invalidAlpha5
  else
    let high := n / 10000
    let tail := n % 10000
    let letter : Option Nat :=
      if 10 ≤ high ∧ high ≤ 17 then some (65 + (high - 10))
      else if 18 ≤ high ∧ high ≤ 22 then some (74 + (high - 18))
      else if 23 ≤ high ∧ high ≤ 33 then some (80 + (high - 23))
      else none
    match letter with
    | none => .panic
    | some l => .ok (Char.ofNat l :: padLeft '0' 4 (natStr tail))

/-- tle.rs:123-130. -/
inductive Classification where
  | unclassified | classified | secret
deriving DecidableEq, Repr

/-- tle.rs:141-148, on the byte read at parse.rs:162. -/
def Classification.ofByte (b : UInt8) : Res TleError Classification :=
  if b = 85 then .ok .unclassified
  else if b = 67 then .ok .classified
  else if b = 83 then .ok .secret
  else .err .invalidClassification

/-- tle.rs:158-164. -/
def Classification.asChar : Classification → Char
  | .unclassified => 'U'
  | .classified => 'C'
  | .secret => 'S'

/-- `chrono::DateTime<Utc>`, proleptic Gregorian year, ordinal day, nanosecond of day. -/
structure DateTime where
  year : Int
  ordinal : Nat
  nanos : Nat
deriving DecidableEq, Repr

/-- Gregorian leap year (chrono). -/
def isLeap (y : Int) : Bool := y % 4 == 0 && (y % 100 != 0 || y % 400 == 0)

def yearLen (y : Int) : Nat := if isLeap y then 366 else 365

/-- tle.rs:211-245 `TLE`; `α` is the type of the floating-point fields. -/
structure TLE (α : Type) where
  norad : Nat
  classification : Classification
  intl : Str
  epoch : DateTime
  nDot : α
  nDdot : ℚ
  bstar : ℚ
  elset : Nat
  rev : Nat
  inclination : α
  raan : α
  ecc : ℚ
  argp : α
  meanAnomaly : α
  meanMotion : α
deriving DecidableEq

/-- The same element set with its floating-point fields mapped. -/
def TLE.map {α β : Type} (f : α → β) (t : TLE α) : TLE β :=
  { norad := t.norad, classification := t.classification, intl := t.intl, epoch := t.epoch,
    nDot := f t.nDot, nDdot := t.nDdot, bstar := t.bstar, elset := t.elset, rev := t.rev,
    inclination := f t.inclination, raan := f t.raan, ecc := t.ecc, argp := f t.argp,
    meanAnomaly := f t.meanAnomaly, meanMotion := f t.meanMotion }

/-- parse.rs:225-231 `expand_two_digit_year`. -/
def expandYear (yy : Int) : Int := if 57 ≤ yy then 1900 + yy else 2000 + yy

/-- chrono: midnight of an ordinal date plus at most one day of nanoseconds. -/
def addNanos (year : Int) (ordinal nanos : Nat) : DateTime :=
  if nanos < 86400000000000 then ⟨year, ordinal, nanos⟩
  else if ordinal < yearLen year then ⟨year, ordinal + 1, nanos - 86400000000000⟩
  else ⟨year + 1, 1, nanos - 86400000000000⟩

/-- parse.rs:233-252 `epoch_from_year_doy`. -/
def epochFromYearDoy (utcOk : DateTime → Bool) (year : Int) (doy : F64) : Res TleError DateTime :=
  match doy with
  | .num q =>
    if 1 ≤ q ∧ q < 367 then
      let dayInt := ⌊q⌋.toNat
      let frac := q - dayInt
      if 1 ≤ dayInt ∧ dayInt ≤ yearLen year then
        let dt := addNanos year dayInt (roundHalfUp (frac * 86400 * 10 ^ 9))
        if utcOk dt then .ok dt else .err .epochConversion
      else .err .invalidEpoch
    else .err .invalidEpoch
  | _ => .err .invalidEpoch

/-- parse.rs:254-260 `parse_int_field`. -/
def parseIntField (raw : Str) : Res TleError Int := Res.ofOption .invalidNumber (parseInt i64Max (trim raw))

/-- parse.rs:262-276 `parse_float_field`, `parse_signed_decimal`. -/
def parseFloatField (raw : Str) : Res TleError F64 := Res.ofOption .invalidNumber (parseFloat (trim raw))

/-- `rest.rfind(['-', '+'])` and the two slices around it: characters before the last sign and the
text from that sign on (a character boundary on both sides, so no panic). -/
def splitLastSign (s : Str) : Option (Str × Str) :=
  let r := s.reverse
  let tail := r.takeWhile (fun c => c ≠ '-' && c ≠ '+')
  match r.dropWhile (fun c => c ≠ '-' && c ≠ '+') with
  | [] => none
  | c :: before => some (before.reverse, c :: tail.reverse)

/-- parse.rs:288-292: leading sign. -/
def signRest (s : Str) : ℚ × Str :=
  match s with
  | '-' :: t => (-1, t)
  | '+' :: t => (1, t)
  | _ => (1, s)

/-- parse.rs:280-323 `parse_assumed_decimal_exponent`. -/
def parseAssumed (raw : Str) : Res TleError ℚ :=
  let s := trim raw
  if s = [] then .ok 0
  else
    let (sign, rest) := signRest s
    if blen rest < 2 then .err .invalidNumber
    else do
      let (mant, exp) ← Res.ofOption .invalidNumber (splitLastSign rest)
      if ¬ mant.all Char.isDigit ∨ mant = [] then .err .invalidNumber
      else do
        let m ← Res.ofOption .invalidNumber (parseUInt u64Max mant)
        let e ← Res.ofOption .invalidNumber (parseInt i32Max exp)
        .ok (sign * ((m : ℚ) * (10 : ℚ) ^ (-(blen mant : ℤ))) * (10 : ℚ) ^ e)

/-- parse.rs:181-194: the eccentricity column. -/
def parseEcc (field : Str) : Res TleError ℚ :=
  let raw := trim field
  if raw = [] ∨ ¬ raw.all Char.isDigit then .err .invalidNumber
  else do
    let n ← Res.ofOption .invalidNumber (parseUInt u64Max raw)
    .ok ((n : ℚ) * (10 : ℚ) ^ (-(blen raw : ℤ)))

/-- `as u16` / `as u32` of an `i64`: reduction modulo the width. -/
def castU (bits : Nat) (i : Int) : Nat := (i % (2 : Int) ^ bits).toNat

/-- Slices of a line. -/
def col (line : Str) (i j : Nat) : Res TleError Str := Res.orPanic (slice line i j)

/-- parse.rs:129-222 `parse_tle_inner` (the name, parse.rs:119-127, is carried separately). -/
def parseTle (utcOk : DateTime → Bool) (line1 line2 : Str) : Res TleError (TLE F64) :=
  if blen line1 ≠ 69 then .err (.badLength 1 (blen line1))
  else if blen line2 ≠ 69 then .err (.badLength 2 (blen line2))
  else do
    let b1 ← Res.orPanic (byteAt line1 0)
    let b2 ← Res.orPanic (byteAt line2 0)
    if b1 ≠ 49 then .err (.badLeadingChar 1)
    else if b2 ≠ 50 then .err (.badLeadingChar 2)
    else do
      let _ ← validateChecksum line1
      let _ ← validateChecksum line2
      let norad1 ← parseSat (← col line1 2 7)
      let cls ← Classification.ofByte (← Res.orPanic (byteAt line1 7))
      let intl ← col line1 9 17
      let yy ← parseIntField (← col line1 18 20)
      let day ← parseFloatField (← col line1 20 32)
      let nDot ← parseFloatField (← col line1 33 43)
      let nDdot ← parseAssumed (← col line1 44 52)
      let bstar ← parseAssumed (← col line1 53 61)
      let elset ← parseIntField (trimStart (← col line1 64 68))
      let norad2 ← parseSat (← col line2 2 7)
      if norad1 ≠ norad2 then .err (.mismatchedSatelliteNumber norad1 norad2)
      else do
        let inc ← parseFloatField (← col line2 8 16)
        let raan ← parseFloatField (← col line2 17 25)
        let ecc ← parseEcc (← col line2 26 33)
        let argp ← parseFloatField (← col line2 34 42)
        let m ← parseFloatField (← col line2 43 51)
        let n ← parseFloatField (← col line2 52 63)
        let rev ← parseIntField (trimStart (← col line2 63 68))
        let epoch ← epochFromYearDoy utcOk (expandYear yy) day
        .ok { norad := norad1, classification := cls, intl := trim intl, epoch := epoch,
              nDot := nDot, nDdot := nDdot, bstar := bstar, elset := castU 16 elset,
              rev := castU 32 rev, inclination := inc, raan := raan, ecc := ecc, argp := argp,
              meanAnomaly := m, meanMotion := n }

/-- builder.rs:425-430 `format_signed_decimal`. -/
def formatSigned (v : ℚ) : Str :=
  (if v < 0 then '-' else ' ') :: '.' :: padLeft '0' 8 (natStr (roundHalfUp (|v| * 10 ^ 8)))

/-- builder.rs:432-453 `format_assumed_decimal_exponent`. `log10().floor()` is the exact
`Int.log 10`. -/
def formatAssumed (v : ℚ) : Str :=
  if v = 0 then " 00000-0".toList
  else
    let sign := if v < 0 then '-' else ' '
    let mag := |v|
    let exp : ℤ := Int.log 10 mag + 1
    let mantissa : ℚ := mag / (10 : ℚ) ^ exp
    let scaled := roundHalfUp (mantissa * 10 ^ 5)
    let (mantissa, exp) := if 1000000 ≤ scaled then (mantissa / 10, exp + 1) else (mantissa, exp)
    let scaled := roundHalfUp (mantissa * 10 ^ 5)
    let expSign := if exp < 0 then '-' else '+'
    sign :: padLeft '0' 5 (natStr scaled) ++ expSign :: natStr exp.natAbs

/-- builder.rs:385-391: the day-of-year with fraction. -/
def dayFull (dt : DateTime) : ℚ :=
  dt.ordinal + ((dt.nanos / 1000000000 : ℕ) + (dt.nanos % 1000000000 : ℕ) * (1 / 10 ^ 9)) / 86400

/-- `{:0w.8}` of a non-negative number. -/
def fmtZero (w p : Nat) (q : ℚ) : Str := padLeft '0' w (fixedStr p (roundHalfEven (q * 10 ^ p)))

/-- builder.rs:378-397: first 68 columns of line 1 (widths not forced by the code). -/
def line1Body (t : TLE ℚ) (cat : Str) : Str :=
  '1' :: ' ' :: cat ++ (t.classification.asChar :: ' ' :: padRight 8 t.intl) ++ (' ' ::
    padLeft '0' 2 (natStr ((t.epoch.year.tmod 100 + 100).tmod 100).toNat)) ++
    fmtZero 12 8 (dayFull t.epoch) ++ (' ' :: formatSigned t.nDot) ++ (' ' :: formatAssumed t.nDdot) ++
    (' ' :: formatAssumed t.bstar) ++ (' ' :: '0' :: ' ' :: padLeft ' ' 4 (natStr t.elset))

/-- builder.rs:408 `(ecc * 1e7).round() as u64`: negative values saturate to zero. -/
def eccScaled (e : ℚ) : Nat := if e < 0 then 0 else roundHalfUp (e * 10 ^ 7)

/-- builder.rs:406-414. -/
def line2Body (t : TLE ℚ) (cat : Str) : Str :=
  '2' :: ' ' :: cat ++ (' ' :: padLeft ' ' 8 (fmtFixed 4 t.inclination)) ++
    (' ' :: padLeft ' ' 8 (fmtFixed 4 t.raan)) ++ (' ' :: padLeft '0' 7 (natStr (eccScaled t.ecc))) ++
    (' ' :: padLeft ' ' 8 (fmtFixed 4 t.argp)) ++ (' ' :: padLeft ' ' 8 (fmtFixed 4 t.meanAnomaly)) ++
    (' ' :: padLeft ' ' 11 (fmtFixed 8 t.meanMotion)) ++ padLeft ' ' 5 (natStr t.rev)

/-- builder.rs:403-404 and 420-421: append the checksum digit. -/
def withChecksum (s : Str) : Str := s ++ natStr (computeChecksum s)

/-- builder.rs:377-423 `format_tle`, release build (`debug_assert_eq!` on the length is off). -/
def formatTle (t : TLE ℚ) : Res TleError (Str × Str) := do
  let cat ← formatAlpha5 t.norad
  .ok (withChecksum (line1Body t cat), withChecksum (line2Body t cat))

/-- parse.rs:119-127: the name of a 3LE; `trim_start_matches("0 ")` removes every repetition. -/
def stripZeroPrefix : Str → Str
  | '0' :: ' ' :: t => stripZeroPrefix t
  | s => s

def parseName (name : Str) : Option Str :=
  let t := trim (stripZeroPrefix name)
  if t = [] then none else some t

end Verif.Tle
