import Verif.Text.Lemmas

/-!
More of the Rust standard library text operations: lines, fields, searching. As in
`Verif.Text.Model`, these model the documented behaviour of `core`/`alloc` (no file of /repo).
-/
namespace Verif.Text

/-- Drop one final `'\r'`. -/
def stripCr (s : Str) : Str := if s.getLast? = some '\r' then s.dropLast else s

/-- `str::lines`, `cur` is the line so far, reversed. -/
def linesGo : Str → Str → List Str
  | [], cur => if cur = [] then [] else [cur.reverse]
  | c :: t, cur => if c = '\n' then stripCr cur.reverse :: linesGo t [] else linesGo t (c :: cur)

/-- `str::lines`: split after each `'\n'`, which is dropped together with one `'\r'` before it; a last
line without `'\n'` is kept as it is. -/
def lines (s : Str) : List Str := linesGo s []

/-- `str::split_whitespace`, `cur` is the word so far, reversed. -/
def wordsGo : Str → Str → List Str
  | [], cur => if cur = [] then [] else [cur.reverse]
  | c :: t, cur =>
    if isWs c then (if cur = [] then wordsGo t [] else cur.reverse :: wordsGo t []) else wordsGo t (c :: cur)

/-- `str::split_whitespace`. -/
def words (s : Str) : List Str := wordsGo s []

/-- `str::split(char)`. -/
def splitChar (c : Char) : Str → List Str
  | [] => [[]]
  | x :: xs =>
    if x = c then [] :: splitChar c xs
    else
      match splitChar c xs with
      | [] => [[x]]
      | h :: t => (x :: h) :: t

/-- `str::find(char)` / `str::split_once(char)`: text before and after the first occurrence. -/
def find1 (c : Char) : Str → Option (Str × Str)
  | [] => none
  | x :: xs => if x = c then some ([], xs) else (find1 c xs).map (fun r => (x :: r.1, r.2))

/-- `str::find("ab")` for a two-character pattern: text before and after the first occurrence. -/
def find2 (a b : Char) : Str → Option (Str × Str)
  | [] => none
  | x :: xs =>
    if x = a ∧ xs.head? = some b then some ([], xs.tail) else (find2 a b xs).map (fun r => (x :: r.1, r.2))

/-- `char::to_ascii_uppercase`. -/
def upperC (c : Char) : Char := if 'a' ≤ c ∧ c ≤ 'z' then Char.ofNat (c.toNat - 32) else c

/-- `str::to_ascii_uppercase`. -/
def upper (s : Str) : Str := s.map upperC

/-- `str::eq_ignore_ascii_case`. -/
def eqIgnoreCase (s t : Str) : Bool := s.map lower == t.map lower

/-- `str::strip_prefix`. -/
def stripPrefix : Str → Str → Option Str
  | [], s => some s
  | _ :: _, [] => none
  | p :: ps, c :: cs => if p = c then stripPrefix ps cs else none

/-- `str::ends_with`. -/
def endsWith (p s : Str) : Bool := p.reverse.isPrefixOf s.reverse

/-! ### Facts -/

theorem linesGo_line {l : Str} (h : '\n' ∉ l) (t cur : Str) :
    linesGo (l ++ '\n' :: t) cur = stripCr (cur.reverse ++ l) :: linesGo t [] := by
  induction l generalizing cur with
  | nil => simp [linesGo]
  | cons c l ih =>
    simp only [List.mem_cons, not_or] at h
    rw [List.cons_append, linesGo, if_neg (Ne.symm h.1), ih h.2]
    simp

theorem lines_line {l : Str} (h : '\n' ∉ l) (t : Str) : lines (l ++ '\n' :: t) = stripCr l :: lines t := by
  unfold lines
  rw [linesGo_line h]
  rfl

/-- Lines with their terminators. -/
def unlines (ls : List Str) : Str := ls.flatMap (fun l => l ++ ['\n'])

theorem unlines_cons (l : Str) (ls : List Str) : unlines (l :: ls) = l ++ '\n' :: unlines ls := by
  simp [unlines]

/-- A line that survives: no line feed inside, no carriage return at the end. -/
def LineOk (l : Str) : Prop := '\n' ∉ l ∧ l.getLast? ≠ some '\r'

theorem lines_unlines {ls : List Str} (h : ∀ l ∈ ls, LineOk l) : lines (unlines ls) = ls := by
  induction ls with
  | nil => rfl
  | cons l ls ih =>
    have hl := h l (by simp)
    rw [unlines_cons, lines_line hl.1, ih (fun x hx => h x (by simp [hx]))]
    simp [stripCr, hl.2]

theorem find2_append {a b : Char} {s t : Str} (hs : find2 a b s = none) (ht : find2 a b t = none)
    (hj : s.getLast? ≠ some a ∨ t.head? ≠ some b) : find2 a b (s ++ t) = none := by
  induction s with
  | nil => simpa using ht
  | cons x xs ih =>
    rw [find2] at hs
    split at hs
    · simp at hs
    · rename_i hx
      simp only [Option.map_eq_none_iff] at hs
      rw [List.cons_append, find2]
      have : ¬ (x = a ∧ (xs ++ t).head? = some b) := by
        rintro ⟨rfl, h⟩
        cases xs with
        | nil =>
          simp only [List.nil_append] at h
          rcases hj with hj | hj
          · simp at hj
          · exact hj h
        | cons y ys =>
          simp only [List.cons_append, List.head?_cons] at h
          exact hx ⟨rfl, by simpa using h⟩
      rw [if_neg this]
      simp only [Option.map_eq_none_iff]
      apply ih hs
      cases xs with
      | nil => exact Or.inl (by simp)
      | cons y ys => simpa using hj

theorem find2_none_of_not_mem {a b : Char} {s : Str} (h : a ∉ s) : find2 a b s = none := by
  induction s with
  | nil => rfl
  | cons x xs ih =>
    simp only [List.mem_cons, not_or] at h
    rw [find2, if_neg (fun hc => h.1 hc.1.symm), ih h.2]
    rfl

theorem find2_none_of_not_mem' {a b : Char} {s : Str} (h : b ∉ s) : find2 a b s = none := by
  induction s with
  | nil => rfl
  | cons x xs ih =>
    simp only [List.mem_cons, not_or] at h
    have : xs.head? ≠ some b := by
      intro hh
      exact h.2 (List.mem_of_mem_head? hh)
    rw [find2, if_neg (fun hc => this hc.2), ih h.2]
    rfl

theorem find1_append {c : Char} {s : Str} (h : c ∉ s) (t : Str) : find1 c (s ++ c :: t) = some (s, t) := by
  induction s with
  | nil => simp [find1]
  | cons x xs ih =>
    simp only [List.mem_cons, not_or] at h
    rw [List.cons_append, find1, if_neg (Ne.symm h.1), ih h.2]
    rfl

theorem find1_none {c : Char} {s : Str} (h : c ∉ s) : find1 c s = none := by
  induction s with
  | nil => rfl
  | cons x xs ih =>
    simp only [List.mem_cons, not_or] at h
    rw [find1, if_neg (Ne.symm h.1), ih h.2]
    rfl

theorem find2_found {a b : Char} {s : Str} (h : a ∉ s) (t : Str) :
    find2 a b (s ++ a :: b :: t) = some (s, t) := by
  induction s with
  | nil => simp [find2]
  | cons x xs ih =>
    simp only [List.mem_cons, not_or] at h
    rw [List.cons_append, find2, if_neg (fun hc => h.1 hc.1.symm), ih h.2]
    rfl

theorem splitChar_append {c : Char} {s : Str} (h : c ∉ s) (t : Str) :
    splitChar c (s ++ c :: t) = s :: splitChar c t := by
  induction s with
  | nil => simp [splitChar]
  | cons x xs ih =>
    simp only [List.mem_cons, not_or] at h
    rw [List.cons_append, splitChar, if_neg (Ne.symm h.1), ih h.2]

theorem splitChar_single {c : Char} {s : Str} (h : c ∉ s) : splitChar c s = [s] := by
  induction s with
  | nil => simp [splitChar]
  | cons x xs ih =>
    simp only [List.mem_cons, not_or] at h
    rw [splitChar, if_neg (Ne.symm h.1), ih h.2]

theorem wordsGo_word {w : Str} (h : ∀ c ∈ w, isWs c = false) (t cur : Str) :
    wordsGo (w ++ t) cur = wordsGo t (w.reverse ++ cur) := by
  induction w generalizing cur with
  | nil => rfl
  | cons c w ih =>
    rw [List.cons_append, wordsGo, h c (by simp)]
    simp only [Bool.false_eq_true, if_false]
    rw [ih (fun x hx => h x (by simp [hx]))]
    simp

/-- A word, then white space. -/
theorem words_cons {w : Str} (hne : w ≠ []) (h : ∀ c ∈ w, isWs c = false) {s : Char} (hs : isWs s = true)
    (t : Str) : words (w ++ s :: t) = w :: words t := by
  unfold words
  rw [wordsGo_word h, wordsGo, hs]
  simp [hne]

theorem words_single {w : Str} (hne : w ≠ []) (h : ∀ c ∈ w, isWs c = false) : words w = [w] := by
  have := wordsGo_word h [] []
  unfold words
  rw [List.append_nil] at this
  rw [this, wordsGo]
  simp [hne]

theorem words_ws {s : Char} (hs : isWs s = true) (t : Str) : words (s :: t) = words t := by
  unfold words
  rw [wordsGo, hs]
  simp

end Verif.Text
