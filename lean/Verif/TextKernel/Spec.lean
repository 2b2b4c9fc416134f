import Verif.TextKernel.Model

/-
Text kernels as written: a small writer of the SPICE text-kernel syntax, and what the variables are
after a sequence of assignments. Independent of the parser (only the value type is shared).
-/
namespace Verif.TextKernel.Spec
open Verif.Text

/-- A scalar as written: an integer, a decimal number with `p + 1` fractional digits, or a quoted string
(in double quotes or in single quotes). -/
inductive Scalar where
  | int (i : Int)
  | real (p : Nat) (q : ℚ)
  | str (double : Bool) (s : Str)

def quoteOf (double : Bool) : Char := if double then '"' else '\''

/-- Text of a scalar. -/
def scalarText : Scalar → Str
  | .int i => (if i < 0 then ['-'] else []) ++ natStr i.natAbs
  | .real p q => fmtFixed (p + 1) q
  | .str d s => quoteOf d :: s ++ [quoteOf d]

/-- Value of a scalar: a decimal number is the value of its text. -/
def scalarValue : Scalar → TextValue
  | .int i => .int i
  | .real p q => .float (.num (fixedValue (p + 1) q))
  | .str _ s => .text s

/-- The right-hand side: one scalar, or an array written in rows. -/
inductive Rhs where
  | one (s : Scalar)
  | rows (l : List (Scalar × List Scalar))

structure Assign where
  key : Str
  append : Bool
  /-- separate the values of a row by a comma -/
  comma : Bool
  /-- put an array on one line -/
  inline : Bool
  rhs : Rhs

def sep (comma : Bool) : Str := if comma then [',', ' '] else [' ']

def rowText (comma : Bool) (r : Scalar × List Scalar) : Str :=
  scalarText r.1 ++ r.2.flatMap (fun x => sep comma ++ scalarText x)

def headText (a : Assign) : Str := a.key ++ (if a.append then " += ".toList else " = ".toList)

/-- The lines of an array if written on several lines. -/
def pieces (a : Assign) (l : List (Scalar × List Scalar)) : List Str :=
  (headText a ++ ['(']) :: (l.map (rowText a.comma) ++ [[')']])

/-- Join by single blanks. -/
def unwords : List Str → Str
  | [] => []
  | [x] => x
  | x :: y :: l => x ++ ' ' :: unwords (y :: l)

/-- The lines of one assignment. -/
def assignLines (a : Assign) : List Str :=
  match a.rhs with
  | .one s => [headText a ++ scalarText s]
  | .rows l => if a.inline then [unwords (pieces a l)] else pieces a l

/-- A kernel file: free text, then the assignments in a data section. -/
def kernelText (preface : List Str) (as : List Assign) : Str :=
  unlines (preface ++ ["\\begindata".toList] ++ as.flatMap assignLines)

/-- All values of a right-hand side. -/
def rhsScalars : Rhs → List Scalar
  | .one s => [s]
  | .rows l => l.flatMap (fun r => r.1 :: r.2)

/-- The value an assignment writes. -/
def rhsValue : Rhs → TextValue
  | .one s => scalarValue s
  | .rows l => .array (l.flatMap (fun r => scalarValue r.1 :: r.2.map scalarValue))

/-- The entries a value stands for. -/
def entries : TextValue → List TextValue
  | .array l => l
  | v => [v]

/-- The value of a variable after assignments, newest first: the newest `=` counts, and each `+=` after it
appends its entries; a variable that was appended to is an array. -/
def finalValue : List Assign → Option TextValue
  | [] => none
  | a :: older =>
    if a.append then some (.array ((finalValue older).elim [] entries ++ entries (rhsValue a.rhs)))
    else some (rhsValue a.rhs)

/-- The value of variable `k` (in upper case) after the assignments. -/
def valueOf (as : List Assign) (k : Str) : Option TextValue :=
  finalValue ((as.filter (fun a => upper a.key = k)).reverse)

/-- Characters allowed in variable names here. -/
def keyChar (c : Char) : Prop := c.isAlphanum = true ∨ c = '_' ∨ c = '/' ∨ c = '-' ∨ c = '.'

/-- A scalar the syntax can express: integers of 64 bits; strings without their quote, line feeds or
comment openings. -/
def ScalarOk : Scalar → Prop
  | .int i => -(2 ^ 63 : Int) ≤ i ∧ i < 2 ^ 63
  | .real _ _ => True
  | .str d s => quoteOf d ∉ s ∧ '\n' ∉ s ∧ find2 '/' '*' s = none

/-- No string contains `+=`. -/
def NoPlusEq : Scalar → Prop
  | .str _ s => find2 '+' '=' s = none
  | _ => True

structure AssignOk (a : Assign) : Prop where
  keyNe : a.key ≠ []
  key : ∀ c ∈ a.key, keyChar c
  vals : ∀ s ∈ rhsScalars a.rhs, ScalarOk s
  plus : a.append = false → ∀ s ∈ rhsScalars a.rhs, NoPlusEq s

/-- Free text: lines that are not a section marker. -/
def PrefaceOk (l : Str) : Prop := LineOk l ∧ (trim l).head? ≠ some '\\'

end Verif.TextKernel.Spec
