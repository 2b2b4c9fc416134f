import Verif.TextKernel.Lemmas

/-
More of property C35: comments inside lines and strings over several lines.
-/
namespace Verif.TextKernel.Props
open Verif.Text Spec

/-- Plain text `p`, then comments, each followed by plain text. -/
def withComments : Str → List (Str × Str) → Str
  | p, [] => p
  | p, (c, q) :: l => p ++ '/' :: '*' :: (c ++ '*' :: '/' :: withComments q l)

/-- The same without the comments. -/
def withoutComments (p : Str) (l : List (Str × Str)) : Str := p ++ l.flatMap (·.2)

theorem find2_first {a b : Char} (hab : a ≠ b) {s : Str} (h : find2 a b s = none) (t : Str) :
    find2 a b (s ++ a :: b :: t) = some (s, t) := by
  induction s with
  | nil => simp [find2]
  | cons x xs ih =>
    cases xs with
    | nil =>
      show find2 a b (x :: a :: b :: t) = _
      unfold find2
      simp [hab, find2]
    | cons y ys =>
      unfold find2 at h
      split at h
      · simp at h
      · rename_i hxy
        have hys : find2 a b (y :: ys) = none := by
          revert h
          rcases find2 a b (y :: ys) with _ | w <;> simp
        have ih := ih hys
        rw [List.cons_append, List.cons_append]
        unfold find2
        rw [if_neg (by simpa using hxy)]
        rw [List.cons_append] at ih
        rw [ih]
        rfl

/-- Every comment of a line is removed, the rest is kept. -/
theorem comments_removed : ∀ (l : List (Str × Str)) (p : Str) (n : Nat),
    find2 '/' '*' p = none → (∀ x ∈ l, find2 '*' '/' x.1 = none ∧ find2 '/' '*' x.2 = none) → l.length ≤ n →
    stripComments n (withComments p l) = withoutComments p l
  | [], p, n, hp, _, _ => by
    simp only [withComments, withoutComments, List.flatMap_nil, List.append_nil]
    exact stripComments_none hp
  | (c, q) :: l, p, 0, _, _, hn => by simp at hn
  | (c, q) :: l, p, n + 1, hp, h, hn => by
    have hc := h (c, q) (by simp)
    rw [withComments, stripComments, find2_first (by decide) hp]
    simp only
    rw [find2_first (by decide) hc.1]
    simp only
    rw [comments_removed l q n hc.2 (fun x hx => h x (by simp [hx])) (by simpa using hn)]
    simp [withoutComments]

theorem length_withComments : ∀ (l : List (Str × Str)) (p : Str), l.length ≤ (withComments p l).length
  | [], p => by simp
  | (c, q) :: l, p => by
    have := length_withComments l q
    simp only [withComments, List.length_append, List.length_cons]
    omega

/-- A data line with comments counts as the line without them (if it is not, as a whole, enclosed in comment
marks). -/
theorem commented_line {p : Str} {l : List (Str × Str)} (hp : find2 '/' '*' p = none)
    (h : ∀ x ∈ l, find2 '*' '/' x.1 = none ∧ find2 '/' '*' x.2 = none)
    (hm : (trim (withComments p l)).head? ≠ some '\\')
    (hw : ("/*".toList.isPrefixOf (trim (withComments p l)) && endsWith "*/".toList (trim (withComments p l))) = false)
    (hg : GoodLine (trim (withoutComments p l))) (d : Data) (stmt : Str) :
    stepLine ⟨d, true, stmt⟩ (withComments p l) = stepLine ⟨d, true, stmt⟩ (trim (withoutComments p l)) := by
  obtain ⟨c, r, h1, _⟩ := hg.head
  have hne : trim (withoutComments p l) ≠ [] := by rw [h1]; simp
  rw [stepLine_good hg]
  unfold stepLine
  dsimp only
  rw [not_marker hm (m := "\\begindata".toList) rfl, not_marker hm (m := "\\begintext".toList) rfl, hw,
    comments_removed l p _ hp h (length_withComments l p)]
  simp only [Bool.false_eq_true, if_false, Bool.not_true, hne]
  rfl

/-- Two comments on a line. -/
example : parse "\\begindata\nA /* name */ = ( 1, /* one */ 2 ) /* all */\n".toList =
    some (.ok [("A".toList, .array [.int 1, .int 2])]) := by decide +kernel
example : withComments "A ".toList [(" name ".toList, " = 1".toList)] = "A /* name */ = 1".toList := by decide
example : GoodLine (trim (withoutComments "A ".toList [(" name ".toList, " = 1".toList)])) :=
  ⟨⟨'A', "  = 1".toList, by decide, by decide, by decide⟩, ⟨'1', "A  = ".toList, by decide, by decide, by decide⟩,
    by decide, by decide⟩

/-- A string that goes over several lines is the lines joined by blanks. -/
theorem string_over_lines {k : Str} (hk : k ≠ []) (hkc : ∀ c ∈ k, keyChar c) {dq : Bool} {s t : Str}
    (hok : ScalarOk (.str dq (s ++ ' ' :: t))) (hplus : NoPlusEq (.str dq (s ++ ' ' :: t)))
    (hs : GoodLine (k ++ (opText false ++ quoteOf dq :: s))) (ht : GoodLine (t ++ [quoteOf dq])) (d : Data) :
    runLines [k ++ (opText false ++ quoteOf dq :: s), t ++ [quoteOf dq]] ⟨d, true, []⟩ =
      some (.ok ⟨store d (upper k) false (.text (s ++ ' ' :: t)), true, []⟩) := by
  have hv : ValueOk false (scalarText (.str dq (s ++ ' ' :: t))) (scalarValue (.str dq (s ++ ' ' :: t))) :=
    value_scalar hok (fun _ => hplus)
  have hq := quote_facts dq
  have hqs : quoteOf dq ∉ s := fun hm => hok.1 (by simp [hm])
  have hopen : complete (extend [] (k ++ (opText false ++ quoteOf dq :: s))) = false := by
    unfold complete extend
    simp only [if_true, List.nil_append]
    rw [List.foldl_append, List.foldl_append, scan_key hkc, op_scan, List.foldl_cons]
    have : scanStep (0, none) (quoteOf dq) = (0, some (quoteOf dq)) := by simp [scanStep, hq.1]
    rw [this, scan_quoted hqs]
    rfl
  have hne : k ++ (opText false ++ quoteOf dq :: s) ≠ [] := by simp [hk]
  have hjoin : extend (extend [] (k ++ (opText false ++ quoteOf dq :: s))) (t ++ [quoteOf dq]) =
      k ++ (opText false ++ scalarText (.str dq (s ++ ' ' :: t))) := by
    unfold extend
    simp [hk, scalarText]
  rw [runLines, stepLine_good hs, hopen]
  simp only [Bool.not_false, if_true]
  rw [runLines, stepLine_good ht, hjoin, complete_statement hkc hv, parseAssignment_ok hk hkc hv]
  rfl

example : parse "\\begindata\nA = 'first\n  second)'\n".toList =
    some (.ok [("A".toList, .text "first second)".toList)]) := by decide +kernel

end Verif.TextKernel.Props
