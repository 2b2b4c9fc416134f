import Mathlib.Tactic.Linarith
import Mathlib.Tactic.FieldSimp
import Mathlib.Tactic.Ring
import Mathlib.Tactic.IntervalCases
import Mathlib.Tactic.Positivity
import Verif.TextKernel.Lemmas
import Verif.TextKernel.ClockModel
import Verif.TextKernel.Leap
import Verif.TextKernel.JulianDate
import Verif.TextKernel.Clock
import Verif.TextKernel.Extra

/-
Property C35: text kernels.
-/
namespace Verif.TextKernel.Props
open Verif.Text Spec

/-! ### C35 -/

/-- Parsing finishes on every text. -/
theorem parse_finishes (src : Str) : ∃ r, parse src = some r := by
  obtain ⟨r, h⟩ := runLines_finishes (lines src) ⟨[], false, []⟩
  unfold parse
  rw [h]
  rcases r with x | st
  · exact ⟨_, rfl⟩
  · simp only
    split <;> exact ⟨_, rfl⟩

/-- A kernel written from assignments is read back: every variable, asked for in any case, has the value
that the assignments give it. Partial: strings must not contain `/*` or their quote, nor, in a replacement,
`+=`; the code misreads those (below). -/
theorem written_kernel_is_read_partial {pre : List Str} (hpre : ∀ l ∈ pre, PrefaceOk l) {as : List Assign}
    (h : ∀ a ∈ as, AssignOk a) :
    ∃ d, parse (kernelText pre as) = some (.ok d) ∧ ∀ k, get d k = valueOf as (upper k) :=
  ⟨_, parse_kernel hpre h, fun k => fold_value as (upper k)⟩

/-- A kernel with free text, a scalar in mixed case, an array over three lines, strings with brackets,
quotes and equal signs, and appended values. -/
def demoAssigns : List Assign :=
  [⟨"Body/Name".toList, false, false, false, .one (.str false "a (b) \"c\" = d".toList)⟩,
   ⟨"X".toList, false, true, false, .rows [(.int (-5), [.real 1 (1 / 4)]), (.str true "it's".toList, [])]⟩,
   ⟨"x".toList, true, false, true, .rows [(.int 7, [.str false "p += q".toList])]⟩,
   ⟨"Y".toList, true, false, false, .one (.int 1)⟩]

example : kernelText ["KPL/X".toList] demoAssigns =
    "KPL/X\n\\begindata\nBody/Name = 'a (b) \"c\" = d'\nX = (\n-5, 0.25\n\"it's\"\n)\nx += ( 7 'p += q' )\nY += 1\n".toList := by
  decide +kernel
example : ∀ l ∈ ["KPL/X".toList], PrefaceOk l := by
  intro l hl
  simp only [List.mem_singleton] at hl
  subst hl
  refine ⟨⟨by decide, by decide⟩, by decide⟩
example : ∀ a ∈ demoAssigns, AssignOk a := by
  intro a ha
  simp only [demoAssigns, List.mem_cons, List.not_mem_nil, or_false] at ha
  rcases ha with rfl | rfl | rfl | rfl
  all_goals
    refine ⟨by decide, ?_, ?_, ?_⟩
    · intro c hc
      revert c
      unfold keyChar
      decide
    · intro s hs
      simp [rhsScalars] at hs
      rcases hs with rfl | rfl | rfl | rfl <;> simp [ScalarOk, quoteOf, find2]
    · intro happ s hs
      simp [rhsScalars] at hs happ
      try (rcases hs with rfl | rfl | rfl | rfl <;> simp [NoPlusEq, find2])
example : valueOf demoAssigns "X".toList =
    some (.array [.int (-5), .float (.num (1 / 4)), .text "it's".toList, .int 7, .text "p += q".toList]) := by
  decide +kernel

/-- The number a scalar stands for. -/
def numberOf : Scalar → Option F64
  | .int i => some (.num i)
  | .real p q => some (.num (fixedValue (p + 1) q))
  | .str _ _ => none

theorem flatten_numbers : ∀ {l : List Scalar} {xs : List F64}, l.mapM numberOf = some xs →
    flatten (l.map scalarValue) = some xs
  | [], xs, h => by
    simp at h
    subst h
    rfl
  | s :: l, xs, h => by
    rw [List.mapM_cons] at h
    simp only [Option.bind_eq_bind, Option.bind_eq_some_iff, Option.pure_def, Option.some.injEq] at h
    obtain ⟨y, hy, ys, hys, rfl⟩ := h
    have ih := flatten_numbers hys
    cases s with
    | int i =>
      simp only [numberOf, Option.some.injEq] at hy
      subst hy
      simp [scalarValue, flatten, ih, toF]
    | real p q =>
      simp only [numberOf, scalarValue, Option.some.injEq] at hy
      subst hy
      simp [scalarValue, flatten, ih]
    | str d s => simp [numberOf] at hy

/-- A variable assigned numbers, over any number of lines, is returned as those numbers in order. -/
theorem numbers_are_read {d : Data} {k : Str} {rhs : Rhs} (h : get d k = some (rhsValue rhs)) {xs : List F64}
    (hx : (rhsScalars rhs).mapM numberOf = some xs) : getF64Array d k = some xs := by
  unfold getF64Array
  rw [h]
  cases rhs with
  | one s =>
    have := flatten_numbers hx
    cases s with
    | int i => simpa [rhsValue, scalarValue, rhsScalars, flatten] using this
    | real p q => simpa [rhsValue, scalarValue, rhsScalars, flatten] using this
    | str d s => simp [rhsScalars, numberOf] at hx
  | rows l =>
    have := flatten_numbers hx
    simp only [rhsValue]
    rw [← this]
    congr 1
    simp [rhsScalars, List.map_flatMap]

example : getF64Array [("X".toList, .array [.int (-5), .float (.num (1 / 4))])] "x".toList =
    some [.num (-5), .num (1 / 4)] := by decide +kernel

/-- Disagreements with the claim, one text each. The assignment operator is looked for inside quoted
strings: a replacement whose string contains `+=` makes another variable, or is refused. -/
theorem plus_equals_inside_string :
    parse "\\begindata\nA = 'b += c'\n".toList =
      some (.ok [("A = 'B".toList, .array [.text "c'".toList])]) ∧
    parse "\\begindata\nA = 'b += 1 '\n".toList = some (.error ()) := by decide +kernel

/-- Comment marks are removed inside quoted strings. -/
theorem comment_inside_string :
    parse "\\begindata\nA = 'x/*y*/z'\n".toList = some (.ok [("A".toList, .text "xz".toList)]) := by
  decide +kernel

/-- A quote inside a string, written twice as SPICE prescribes, is refused. -/
theorem doubled_quote_refused : parse "\\begindata\nA = 'it''s'\n".toList = some (.error ()) := by
  decide +kernel

/-- Numbers with the exponent letter D, common in SPICE kernels, are read as text, and asking for the
number gives nothing. -/
theorem fortran_exponent_is_text :
    parse "\\begindata\nK = 1.657D-3\n".toList = some (.ok [("K".toList, .text "1.657D-3".toList)]) ∧
    getF64Array [("K".toList, .text "1.657D-3".toList)] "K".toList = none := by decide +kernel

/-- A value on the line after its equal sign is refused. -/
theorem value_on_next_line_refused : parse "\\begindata\nA =\n 1\n".toList = some (.error ()) := by
  decide +kernel

/-- An unfinished array before `\begintext` is dropped without an error, at the end of the file it is an
error. -/
theorem unfinished_statement_dropped :
    parse "\\begindata\nA = ( 1\n\\begintext\n".toList = some (.ok []) ∧
    parse "\\begindata\nA = ( 1\n".toList = some (.error ()) := by decide +kernel

end Verif.TextKernel.Props
