import Verif.Text.Lines

/-
Model of `/repo/src/formats/spice/text.rs`, `lsk.rs` and `sclk.rs` (same directory).

Texts are lists of Unicode scalar values, `f64` values exact rationals (with infinities and NaN as read
by `str::parse`), `HashMap` an association list without duplicate keys (only lookups and the key set are
used), error messages dropped. Recursion of the value parser carries fuel; an outer `none` means not
finished.
-/
namespace Verif.TextKernel
open Verif.Text

/-- text.rs 28-37. -/
inductive TextValue where
  | int (i : Int)
  | float (x : F64)
  | text (s : Str)
  | array (l : List TextValue)

mutual
/-- Equality of values is decidable (for examples). -/
def decEqV : (a b : TextValue) → Decidable (a = b)
  | .int i, .int j => if h : i = j then isTrue (by rw [h]) else isFalse (fun e => h (by injection e))
  | .float i, .float j => if h : i = j then isTrue (by rw [h]) else isFalse (fun e => h (by injection e))
  | .text i, .text j => if h : i = j then isTrue (by rw [h]) else isFalse (fun e => h (by injection e))
  | .array i, .array j =>
    match decEqL i j with
    | isTrue h => isTrue (by rw [h])
    | isFalse h => isFalse (fun e => h (by injection e))
  | .int _, .float _ | .int _, .text _ | .int _, .array _ => isFalse (by simp)
  | .float _, .int _ | .float _, .text _ | .float _, .array _ => isFalse (by simp)
  | .text _, .int _ | .text _, .float _ | .text _, .array _ => isFalse (by simp)
  | .array _, .int _ | .array _, .float _ | .array _, .text _ => isFalse (by simp)
/-- The same for lists. -/
def decEqL : (a b : List TextValue) → Decidable (a = b)
  | [], [] => isTrue rfl
  | [], _ :: _ => isFalse (by simp)
  | _ :: _, [] => isFalse (by simp)
  | x :: xs, y :: ys =>
    match decEqV x y with
    | isFalse h => isFalse (fun e => h (by injection e))
    | isTrue h =>
      match decEqL xs ys with
      | isTrue h' => isTrue (by rw [h, h'])
      | isFalse h' => isFalse (fun e => h' (by injection e))
end

instance : DecidableEq TextValue := decEqV

/-- Result of a fallible call. -/
abbrev R (α : Type) := Except Unit α

instance {α : Type} [DecidableEq α] : DecidableEq (R α) := fun a b =>
  match a, b with
  | .ok x, .ok y => if h : x = y then isTrue (by rw [h]) else isFalse (fun e => h (by injection e))
  | .error _, .error _ => isTrue rfl
  | .ok _, .error _ => isFalse (by simp)
  | .error _, .ok _ => isFalse (by simp)

/-- text.rs 136-148. The first argument bounds the number of fragments (the text gets shorter). -/
def stripComments : Nat → Str → Str
  | 0, s => s
  | n + 1, s =>
    match find2 '/' '*' s with
    | none => s
    | some (pre, rest) =>
      match find2 '*' '/' rest with
      | none => pre
      | some (_, rest) => pre ++ stripComments n rest

/-- text.rs 154-165: one character of the scan of `statement_complete`. -/
def scanStep (st : Int × Option Char) (c : Char) : Int × Option Char :=
  match st.2 with
  | some q => if c = q then (st.1, none) else st
  | none =>
    if c = '\'' ∨ c = '"' then (st.1, some c)
    else if c = '(' then (st.1 + 1, none)
    else if c = ')' then (st.1 - 1, none)
    else st

/-- text.rs 150-168. -/
def complete (s : Str) : Bool := s.foldl scanStep (0, none) == (0, none)

/-- text.rs 354, 338. -/
def isDelim (c : Char) : Bool := isWs c || c == ','

/-- text.rs 352-360. -/
def skip (s : Str) : Str := s.dropWhile isDelim

/-- text.rs 338. -/
def isStop (c : Char) : Bool := isWs c || c == ',' || c == ')'

/-- text.rs 377-385. -/
def parseScalar (t : Str) : TextValue :=
  match parseInt (2 ^ 63 - 1) t with
  | some i => .int i
  | none =>
    match parseFloat t with
    | some x => .float x
    | none => .text t

/-- text.rs 335-350. -/
def parseBare (s : Str) : R (TextValue × Str) :=
  let tok := s.takeWhile (fun c => !isStop c)
  let t := trim tok
  if t = [] then .error () else .ok (parseScalar t, s.dropWhile (fun c => !isStop c))

/-- text.rs 319-333; `q` is the opening quote. -/
def parseString (q : Char) (s : Str) : R (TextValue × Str) :=
  match find1 q s with
  | some (body, rest) => .ok (.text body, rest)
  | none => .error ()

mutual
/-- text.rs 284-296; the second component is the text not yet read. -/
def parseValue : Nat → Str → Option (R (TextValue × Str))
  | 0, _ => none
  | n + 1, s =>
    match skip s with
    | [] => some (.error ())
    | c :: r =>
      if c = '(' then parseArray n r []
      else if c = '\'' ∨ c = '"' then some (parseString c r)
      else some (parseBare (c :: r))
/-- text.rs 298-317. -/
def parseArray : Nat → Str → List TextValue → Option (R (TextValue × Str))
  | 0, _, _ => none
  | n + 1, s, acc =>
    match skip s with
    | [] => some (.error ())
    | c :: r =>
      if c = ')' then some (.ok (.array acc, r))
      else
        match parseValue n (c :: r) with
        | none => none
        | some (.error x) => some (.error x)
        | some (.ok (v, rest)) => parseArray n rest (acc ++ [v])
end

/-- Fuel that a value of this text needs at most. -/
def valueFuel (s : Str) : Nat := 2 * s.length + 2

/-- text.rs 188-195. -/
def parseWhole (s : Str) : Option (R TextValue) :=
  match parseValue (valueFuel s) s with
  | none => none
  | some (.error x) => some (.error x)
  | some (.ok (v, rest)) => if skip rest = [] then some (.ok v) else some (.error ())

/-- text.rs 171-179. -/
def splitAssign (s : Str) : Option (Str × Str × Bool) :=
  match find2 '+' '=' s with
  | some (k, v) => some (k, v, true)
  | none =>
    match find1 '=' s with
    | some (k, v) => some (k, v, false)
    | none => none

/-- text.rs 170-198. -/
def parseAssignment (s : Str) : Option (R (Str × Bool × TextValue)) :=
  match splitAssign s with
  | none => some (.error ())
  | some (k, v, app) =>
    if trim k = [] then some (.error ())
    else
      match parseWhole (trim v) with
      | none => none
      | some (.error x) => some (.error x)
      | some (.ok x) => some (.ok (upper (trim k), app, x))

/-- The table of variables. -/
abbrev Data := List (Str × TextValue)

def getKey (d : Data) (k : Str) : Option TextValue := (d.find? (fun x => x.1 = k)).map (·.2)
def insertKey (d : Data) (k : Str) (v : TextValue) : Data := d.filter (fun x => x.1 ≠ k) ++ [(k, v)]

/-- text.rs 208-211, 216-219: the values that an appended value contributes. -/
def items : TextValue → List TextValue
  | .array l => l
  | v => [v]

/-- text.rs 200-230. -/
def store (d : Data) (k : Str) (app : Bool) (v : TextValue) : Data :=
  if !app then insertKey d k v
  else
    match getKey d k with
    | some (.array old) => insertKey d k (.array (old ++ items v))
    | some old => insertKey d k (.array (old :: items v))
    | none => insertKey d k (.array (items v))

/-- State of the line loop: text.rs 59-61. -/
structure St where
  data : Data
  inData : Bool
  stmt : Str
deriving DecidableEq

/-- text.rs 64-99: one line. -/
def stepLine (st : St) (raw : Str) : Option (R St) :=
  let t := trim raw
  if eqIgnoreCase t "\\begindata".toList then some (.ok { st with inData := true, stmt := [] })
  else if eqIgnoreCase t "\\begintext".toList then some (.ok { st with inData := false, stmt := [] })
  else if !st.inData then some (.ok st)
  else if "/*".toList.isPrefixOf t && endsWith "*/".toList t then some (.ok st)
  else
    let clean := trim (stripComments raw.length raw)
    if clean = [] then some (.ok st)
    else
      let stmt := (if st.stmt = [] then [] else st.stmt ++ [' ']) ++ clean
      if !complete stmt then some (.ok { st with stmt := stmt })
      else
        match parseAssignment stmt with
        | none => none
        | some (.error x) => some (.error x)
        | some (.ok (k, app, v)) => some (.ok { st with data := store st.data k app v, stmt := [] })

/-- text.rs 63-100. -/
def runLines : List Str → St → Option (R St)
  | [], st => some (.ok st)
  | l :: ls, st =>
    match stepLine st l with
    | none => none
    | some (.error x) => some (.error x)
    | some (.ok st) => runLines ls st

/-- text.rs 58-109. -/
def parse (src : Str) : Option (R Data) :=
  match runLines (lines src) ⟨[], false, []⟩ with
  | none => none
  | some (.error x) => some (.error x)
  | some (.ok st) => if trim st.stmt ≠ [] then some (.error ()) else some (.ok st.data)

/-- text.rs 112-114. -/
def get (d : Data) (k : Str) : Option TextValue := getKey d (upper k)

/-- `i64 as f64`, exact here (rounding above 2^53 is not modelled). -/
def toF (i : Int) : F64 := .num i

/-- Inner loop of text.rs 238-246. -/
def flatInner : List TextValue → Option (List F64)
  | [] => some []
  | .int i :: l => (flatInner l).map (toF i :: ·)
  | .float x :: l => (flatInner l).map (x :: ·)
  | _ :: _ => none

/-- text.rs 232-251. -/
def flatten : List TextValue → Option (List F64)
  | [] => some []
  | .int i :: l => (flatten l).map (toF i :: ·)
  | .float x :: l => (flatten l).map (x :: ·)
  | .array a :: l => (flatInner a).bind (fun xs => (flatten l).map (xs ++ ·))
  | .text _ :: _ => none

/-- text.rs 117-124. -/
def getF64Array (d : Data) (k : Str) : Option (List F64) :=
  match get d k with
  | none => none
  | some (.int i) => some [toF i]
  | some (.float x) => some [x]
  | some (.array l) => flatten l
  | some (.text _) => none

end Verif.TextKernel

