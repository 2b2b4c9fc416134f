import Mathlib.Data.Rat.Floor
import Mathlib.Algebra.Order.Floor.Ring

/-!
Rust standard library text operations used by the parsers and writers of the crate, on lists of
Unicode scalar values. Byte offsets count UTF-8 bytes, as `&str` indexing does. These model the
documented behaviour of `core`/`alloc` (no file of /repo); numbers read as `f64` are exact
rationals (rounding to 53 bits is not modelled).
-/
namespace Verif.Text

abbrev Str := List Char

/-- Outcome of a call: a value, an error value, or a panic. -/
inductive Res (ε α : Type) where
  | ok (a : α)
  | err (e : ε)
  | panic
deriving DecidableEq, Repr

namespace Res
variable {ε α β : Type}

@[simp] def bind : Res ε α → (α → Res ε β) → Res ε β
  | ok a, f => f a
  | err e, _ => err e
  | panic, _ => panic

instance : Monad (Res ε) where
  pure := ok
  bind := bind

@[simp] theorem bind_ok (a : α) (f : α → Res ε β) : (ok a >>= f) = f a := rfl
@[simp] theorem bind_err (e : ε) (f : α → Res ε β) : ((err e : Res ε α) >>= f) = err e := rfl
@[simp] theorem bind_panic (f : α → Res ε β) : ((panic : Res ε α) >>= f) = panic := rfl
@[simp] theorem pure_eq (a : α) : (pure a : Res ε α) = ok a := rfl

instance : LawfulMonad (Res ε) := LawfulMonad.mk'
  (id_map := fun x => by cases x <;> rfl)
  (pure_bind := fun _ _ => rfl)
  (bind_assoc := fun x _ _ => by cases x <;> rfl)

/-- `opt.ok_or(e)?` -/
def ofOption (e : ε) : Option α → Res ε α
  | some a => ok a
  | none => err e

/-- A slicing or indexing operation: `none` is a panic. -/
def orPanic : Option α → Res ε α
  | some a => ok a
  | none => panic

end Res

/-- UTF-8 encoding (`str::as_bytes`). -/
def utf8 (s : Str) : List UInt8 := s.flatMap String.utf8EncodeChar

/-- `str::len`: number of UTF-8 bytes. -/
def blen (s : Str) : Nat := (s.map Char.utf8Size).sum

/-- `&s[n..]`; `none` is the panic for an offset past the end or inside a character. -/
def dropB : Str → Nat → Option Str
  | s, 0 => some s
  | [], _ + 1 => none
  | c :: cs, n + 1 => if c.utf8Size ≤ n + 1 then dropB cs (n + 1 - c.utf8Size) else none

/-- `&s[..n]`. -/
def takeB : Str → Nat → Option Str
  | _, 0 => some []
  | [], _ + 1 => none
  | c :: cs, n + 1 =>
    if c.utf8Size ≤ n + 1 then (takeB cs (n + 1 - c.utf8Size)).map (c :: ·) else none

/-- `&s[i..j]`. -/
def slice (s : Str) (i j : Nat) : Option Str :=
  if i ≤ j then (dropB s i).bind (takeB · (j - i)) else none

/-- `char::is_whitespace`: Unicode `White_Space`. -/
def isWs (c : Char) : Bool :=
  let n := c.toNat
  (9 ≤ n && n ≤ 13) || n == 32 || n == 0x85 || n == 0xA0 || n == 0x1680 ||
  (0x2000 ≤ n && n ≤ 0x200A) || n == 0x2028 || n == 0x2029 || n == 0x202F || n == 0x205F ||
  n == 0x3000

/-- `str::trim_start`. -/
def trimStart (s : Str) : Str := s.dropWhile isWs

/-- `str::trim_end`. -/
def trimEnd (s : Str) : Str := (s.reverse.dropWhile isWs).reverse

/-- `str::trim`. -/
def trim (s : Str) : Str := trimEnd (trimStart s)

/-- Value of an ASCII digit. -/
def digitVal (c : Char) : Nat := c.toNat - 48

/-- Value of a digit string. -/
def digitsVal (s : Str) : Nat := s.foldl (fun acc c => 10 * acc + digitVal c) 0

/-- A non-empty string of ASCII digits. -/
def parseDigits (s : Str) : Option Nat :=
  if s ≠ [] ∧ s.all Char.isDigit then some (digitsVal s) else none

/-- `str::parse::<uN>` with maximum `max`: optional `+`, digits, no overflow. -/
def parseUInt (max : Nat) (s : Str) : Option Nat :=
  let r := match s with
    | '+' :: t => parseDigits t
    | _ => parseDigits s
  r.bind (fun n => if n ≤ max then some n else none)

/-- `str::parse::<iN>` with bounds `-(max+1) ..= max`. -/
def parseInt (max : Nat) (s : Str) : Option Int :=
  match s with
  | '-' :: t => (parseDigits t).bind (fun n => if n ≤ max + 1 then some (-(n : Int)) else none)
  | '+' :: t => (parseDigits t).bind (fun n => if n ≤ max then some (n : Int) else none)
  | _ => (parseDigits s).bind (fun n => if n ≤ max then some (n : Int) else none)

/-- A parsed `f64`. -/
inductive F64 where
  | num (q : ℚ)
  | inf (negative : Bool)
  | nan
deriving DecidableEq

/-- The finite value of a parsed number. -/
def F64.toRat? : F64 → Option ℚ
  | .num q => some q
  | _ => none

def lower (c : Char) : Char := if 'A' ≤ c ∧ c ≤ 'Z' then Char.ofNat (c.toNat + 32) else c

/-- Exponent part of the float grammar. -/
def parseExp (s : Str) : Option Int :=
  match s with
  | [] => some 0
  | c :: t =>
    if c = 'e' ∨ c = 'E' then
      match t with
      | '-' :: u => (parseDigits u).map (fun n => -(n : Int))
      | '+' :: u => (parseDigits u).map (fun n => (n : Int))
      | _ => (parseDigits t).map (fun n => (n : Int))
    else none

/-- Unsigned part of the float grammar: digits, optional point and digits, optional exponent. -/
def parseUFloat (s : Str) : Option ℚ :=
  let ip := s.takeWhile Char.isDigit
  let r := s.dropWhile Char.isDigit
  let (fp, r) := match r with
    | '.' :: t => (t.takeWhile Char.isDigit, t.dropWhile Char.isDigit)
    | _ => ([], r)
  if ip = [] ∧ fp = [] then none
  else (parseExp r).map (fun e =>
    (digitsVal (ip ++ fp) : ℚ) / 10 ^ fp.length * (10 : ℚ) ^ e)

/-- `str::parse::<f64>`. -/
def parseFloat (s : Str) : Option F64 :=
  let (neg, r) := match s with
    | '-' :: t => (true, t)
    | '+' :: t => (false, t)
    | _ => (false, s)
  match parseUFloat r with
  | some q => some (.num (if neg then -q else q))
  | none =>
    let l := r.map lower
    if l = "nan".toList then some .nan
    else if l = "inf".toList ∨ l = "infinity".toList then some (.inf neg)
    else none

/-- The character of a digit. -/
def digitChar (d : Nat) : Char := Char.ofNat (48 + d)

/-- Decimal text of a natural number (`Display`). -/
def natStr (n : Nat) : Str :=
  if n < 10 then [digitChar n] else natStr (n / 10) ++ [digitChar (n % 10)]

/-- The last `w` decimal digits. -/
def digitsW : Nat → Nat → Str
  | 0, _ => []
  | w + 1, n => digitsW w (n / 10) ++ [digitChar (n % 10)]

/-- `{:>w}` and, with `c = '0'`, `{:0w}` of an unsigned number. -/
def padLeft (c : Char) (w : Nat) (s : Str) : Str := List.replicate (w - s.length) c ++ s

/-- `{:<w}`. -/
def padRight (w : Nat) (s : Str) : Str := s ++ List.replicate (w - s.length) ' '

/-- Rounding of a non-negative number to the nearest integer, ties to even (the rule of `{:.p}`). -/
def roundHalfEven (x : ℚ) : Nat :=
  let f := ⌊x⌋.toNat
  let d := x - f
  if d < 1 / 2 then f else if 1 / 2 < d then f + 1 else if f % 2 = 0 then f else f + 1

/-- `f64::round` of a non-negative number: ties away from zero. -/
def roundHalfUp (x : ℚ) : Nat := ⌊x + 1 / 2⌋.toNat

/-- Decimal text of `k / 10^p`, with `p` fractional digits. -/
def fixedStr (p k : Nat) : Str := natStr (k / 10 ^ p) ++ '.' :: digitsW p (k % 10 ^ p)

/-- `{:.p}` of a finite number. -/
def fmtFixed (p : Nat) (q : ℚ) : Str :=
  (if q < 0 then ['-'] else []) ++ fixedStr p (roundHalfEven (|q| * 10 ^ p))

/-- All characters are ASCII. -/
def isAscii (s : Str) : Prop := ∀ c ∈ s, c.toNat < 128

end Verif.Text
