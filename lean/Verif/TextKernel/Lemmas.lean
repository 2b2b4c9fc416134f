import Mathlib.Data.List.Induction
import Mathlib.Tactic.Linarith
import Mathlib.Tactic.IntervalCases
import Verif.TextKernel.Spec

namespace Verif.TextKernel
open Verif.Text Spec

/-! ### The parser finishes -/

theorem dropWhile_length_le {p : Char → Bool} (s : Str) : (s.dropWhile p).length ≤ s.length :=
  (List.dropWhile_suffix p).length_le

theorem find1_length {c : Char} : ∀ {s : Str} {r : Str × Str}, find1 c s = some r → r.2.length < s.length
  | [], r, h => by simp [find1] at h
  | x :: xs, r, h => by
    rw [find1] at h
    split at h
    · simp only [Option.some.injEq] at h
      subst h
      simp
    · rw [Option.map_eq_some_iff] at h
      obtain ⟨q, hq, rfl⟩ := h
      have := find1_length hq
      simp; omega

theorem skip_head {s : Str} {c : Char} {r : Str} (h : skip s = c :: r) : isDelim c = false := by
  have := List.head?_dropWhile_not isDelim s
  unfold skip at h
  rw [h] at this
  simpa using this

theorem finishes_aux (n : Nat) :
    (∀ s, 2 * (skip s).length + 1 ≤ n → ∃ r, parseValue n s = some r ∧ ∀ v t, r = .ok (v, t) → t.length < (skip s).length) ∧
    (∀ s acc, 2 * (skip s).length + 2 ≤ n → ∃ r, parseArray n s acc = some r ∧
      ∀ v t, r = .ok (v, t) → t.length < (skip s).length) := by
  induction n with
  | zero => exact ⟨fun s h => by omega, fun s acc h => by omega⟩
  | succ n ih =>
    obtain ⟨ihv, iha⟩ := ih
    constructor
    · intro s hs
      rw [parseValue]
      rcases hsk : skip s with _ | ⟨c, r⟩
      · exact ⟨_, rfl, by simp⟩
      · rw [hsk] at hs
        have hr : (skip r).length ≤ r.length := dropWhile_length_le r
        simp only
        split
        · obtain ⟨q, hq, hlen⟩ := iha r [] (by simp at hs; omega)
          refine ⟨q, hq, ?_⟩
          intro v t hvt
          have := hlen v t hvt
          simp; omega
        · split
          · refine ⟨_, rfl, ?_⟩
            intro v t hvt
            unfold parseString at hvt
            split at hvt
            · rename_i hf
              simp only [Except.ok.injEq, Prod.mk.injEq] at hvt
              have := find1_length hf
              rw [hvt.2] at this
              simp at this ⊢; omega
            · simp at hvt
          · refine ⟨_, rfl, ?_⟩
            intro v t hvt
            unfold parseBare at hvt
            simp only at hvt
            split at hvt
            · simp at hvt
            · rename_i hne
              simp only [Except.ok.injEq, Prod.mk.injEq] at hvt
              have hlen : ((c :: r).dropWhile (fun c => !isStop c)).length +
                  ((c :: r).takeWhile (fun c => !isStop c)).length = (c :: r).length := by
                rw [add_comm, ← List.length_append, List.takeWhile_append_dropWhile]
              rw [hvt.2] at hlen
              have : ((c :: r).takeWhile (fun c => !isStop c)) ≠ [] := by
                intro h
                rw [h] at hne
                simp [trim, trimStart, trimEnd] at hne
              have := List.length_pos_iff.mpr this
              omega
    · intro s acc hs
      rw [parseArray]
      rcases hsk : skip s with _ | ⟨c, r⟩
      · exact ⟨_, rfl, by simp⟩
      · rw [hsk] at hs
        simp only
        split
        · refine ⟨_, rfl, ?_⟩
          intro v t hvt
          simp only [Except.ok.injEq, Prod.mk.injEq] at hvt
          rw [← hvt.2]
          simp
        · have hcs : skip (c :: r) = c :: r := by
            unfold skip
            rw [List.dropWhile_cons, skip_head hsk]
            simp
          obtain ⟨q, hq, hlen⟩ := ihv (c :: r) (by rw [hcs]; omega)
          rw [hq]
          rw [hcs] at hlen
          rcases q with x | ⟨v, t⟩
          · exact ⟨_, rfl, by simp⟩
          · have ht := hlen v t rfl
            have hr : (skip t).length ≤ t.length := dropWhile_length_le t
            obtain ⟨q2, hq2, hlen2⟩ := iha t (acc ++ [v]) (by simp at hs ht; omega)
            refine ⟨q2, hq2, ?_⟩
            intro v' t' h'
            have := hlen2 v' t' h'
            omega

theorem parseWhole_finishes (s : Str) : ∃ r, parseWhole s = some r := by
  have hr : (skip s).length ≤ s.length := dropWhile_length_le s
  obtain ⟨r, h, _⟩ := (finishes_aux (valueFuel s)).1 s (by unfold valueFuel; omega)
  unfold parseWhole
  rw [h]
  rcases r with x | ⟨v, t⟩
  · exact ⟨_, rfl⟩
  · simp only
    split <;> exact ⟨_, rfl⟩

theorem parseAssignment_finishes (s : Str) : ∃ r, parseAssignment s = some r := by
  unfold parseAssignment
  split
  · exact ⟨_, rfl⟩
  · rename_i k v app _
    split
    · exact ⟨_, rfl⟩
    · obtain ⟨r, h⟩ := parseWhole_finishes (trim v)
      rw [h]
      rcases r with x | y <;> exact ⟨_, rfl⟩

theorem stepLine_finishes (st : St) (l : Str) : ∃ r, stepLine st l = some r := by
  unfold stepLine
  dsimp only
  repeat' split
  all_goals first
    | exact ⟨_, rfl⟩
    | (rename_i h
       obtain ⟨r, hr⟩ := parseAssignment_finishes _
       rw [hr] at h
       simp at h)

theorem runLines_finishes : ∀ (ls : List Str) (st : St), ∃ r, runLines ls st = some r
  | [], st => ⟨_, rfl⟩
  | l :: ls, st => by
    obtain ⟨r, h⟩ := stepLine_finishes st l
    unfold runLines
    rw [h]
    rcases r with x | y
    · exact ⟨_, rfl⟩
    · exact runLines_finishes ls y

/-! ### Scalars -/

/-- Characters of numbers. -/
def numChar (c : Char) : Prop := c.isDigit = true ∨ c = '-' ∨ c = '.'

theorem numChar_facts {c : Char} (h : numChar c) : isStop c = false ∧ isDelim c = false ∧ c ≠ '\'' ∧ c ≠ '"' ∧
    c ≠ '(' ∧ c ≠ ')' ∧ c ≠ '\n' ∧ c ≠ '\\' ∧ c ≠ '/' ∧ c ≠ '+' ∧ c ≠ '\r' := by
  rcases h with h | rfl | rfl
  · have hw := isDigit_not_ws h
    have hne : ∀ d : Char, d.isDigit = false → c ≠ d := by
      rintro d hd rfl
      rw [h] at hd
      simp at hd
    refine ⟨?_, ?_, ?_, ?_, ?_, ?_, ?_, ?_, ?_, ?_, ?_⟩
    · simp [isStop, hw, hne ',' (by decide), hne ')' (by decide)]
    · simp [isDelim, hw, hne ',' (by decide)]
    all_goals exact hne _ (by decide)
  · decide
  · decide

theorem natStr_num (n : Nat) : ∀ c ∈ natStr n, numChar c := by
  intro c hc
  have := (natStr_digits n).1
  rw [List.all_eq_true] at this
  exact Or.inl (this c hc)

/-- The text of a number that is not a string. -/
theorem number_chars {s : Scalar} (h : ∀ d t, s ≠ .str d t) : ∀ c ∈ scalarText s, numChar c := by
  intro c hc
  cases s with
  | int i =>
    simp only [scalarText, List.mem_append] at hc
    rcases hc with hc | hc
    · split at hc
      · simp only [List.mem_singleton] at hc
        exact Or.inr (Or.inl hc)
      · simp at hc
    · exact natStr_num _ c hc
  | real p q =>
    simp only [scalarText, fmtFixed, List.mem_append] at hc
    rcases hc with hc | hc
    · split at hc
      · simp only [List.mem_singleton] at hc
        exact Or.inr (Or.inl hc)
      · simp at hc
    · rcases fixedStr_chars _ _ c hc with rfl | h
      · exact Or.inr (Or.inr rfl)
      · exact Or.inl h
  | str d t => exact absurd rfl (h d t)

theorem number_ne (s : Scalar) : scalarText s ≠ [] := by
  cases s with
  | int i => simp [scalarText, (natStr_digits i.natAbs).2.1]
  | real p q =>
    obtain ⟨a, b, h, _⟩ := fixedStr_shape (p + 1) (roundHalfEven (|q| * 10 ^ (p + 1)))
    simp [scalarText, fmtFixed, h]
  | str d t => simp [scalarText]

theorem parseInt_int (i : Int) (h : -(2 ^ 63 : Int) ≤ i ∧ i < 2 ^ 63) :
    parseInt (2 ^ 63 - 1) (scalarText (.int i)) = some i := by
  obtain ⟨h1, h2, h3⟩ := natStr_digits i.natAbs
  show parseInt (2 ^ 63 - 1) ((if i < 0 then ['-'] else []) ++ natStr i.natAbs) = some i
  split
  · rename_i hn
    rw [List.singleton_append]
    show (parseDigits (natStr i.natAbs)).bind _ = _
    rw [parseDigits_of h1 h2]
    simp only [Option.bind_some]
    have h3' : digitsVal (natStr i.natAbs) = i.natAbs := h3
    rw [h3', if_pos (by omega)]
    congr 1
    omega
  · rename_i hn
    have h3' : digitsVal (natStr i.natAbs) = i.natAbs := h3
    rw [List.nil_append, parseInt_of h1 h2 (by rw [h3']; omega), h3']
    congr 1
    omega

theorem parseDigits_point {s : Str} (h : '.' ∈ s) : parseDigits s = none := by
  unfold parseDigits
  rw [if_neg]
  rintro ⟨_, h2⟩
  rw [List.all_eq_true] at h2
  have := h2 '.' h
  simp at this

theorem parseInt_point {m : Nat} {s : Str} (h : '.' ∈ s) : parseInt m s = none := by
  unfold parseInt
  split
  · rename_i t
    rw [parseDigits_point (by simpa using h)]
    rfl
  · rename_i t
    rw [parseDigits_point (by simpa using h)]
    rfl
  · rw [parseDigits_point h]
    rfl

theorem point_mem (p : Nat) (q : ℚ) : '.' ∈ fmtFixed p q := by
  obtain ⟨a, b, h, _⟩ := fixedStr_shape p (roundHalfEven (|q| * 10 ^ p))
  simp [fmtFixed, h]

theorem parseScalar_number {s : Scalar} (hok : ScalarOk s) (h : ∀ d t, s ≠ .str d t) :
    parseScalar (scalarText s) = scalarValue s := by
  cases s with
  | int i =>
    unfold parseScalar
    rw [parseInt_int i hok]
    rfl
  | real p q =>
    unfold parseScalar
    rw [show scalarText (.real p q) = fmtFixed (p + 1) q from rfl, parseInt_point (point_mem _ _),
      parseFloat_fmtFixed]
    rfl
  | str d t => exact absurd rfl (h d t)

theorem takeWhile_stop {t r : Str} {p : Char → Bool} (ht : ∀ c ∈ t, p c = true)
    (hr : ∀ c, r.head? = some c → p c = false) :
    (t ++ r).takeWhile p = t ∧ (t ++ r).dropWhile p = r := by
  induction t with
  | nil =>
    cases r with
    | nil => simp
    | cons c r => simp [hr c rfl]
  | cons c t ih =>
    have := ih (fun x hx => ht x (by simp [hx]))
    simp [ht c (by simp), this]

theorem quote_facts (d : Bool) : (quoteOf d = '\'' ∨ quoteOf d = '"') ∧ quoteOf d ≠ '(' ∧ quoteOf d ≠ ')' ∧
    isDelim (quoteOf d) = false ∧ quoteOf d ≠ '\n' ∧ quoteOf d ≠ '\\' ∧ quoteOf d ≠ '/' ∧ quoteOf d ≠ '*' ∧
    quoteOf d ≠ '+' ∧ quoteOf d ≠ '=' ∧ quoteOf d ≠ '\r' ∧ isWs (quoteOf d) = false := by
  cases d <;> decide

theorem scalar_cases (s : Scalar) : (∃ d t, s = .str d t) ∨ ∀ d t, s ≠ .str d t := by
  cases s with
  | str d t => exact Or.inl ⟨d, t, rfl⟩
  | int i => exact Or.inr (by simp)
  | real p q => exact Or.inr (by simp)

/-- Reading one scalar. -/
theorem parseValue_scalar {s : Scalar} (hok : ScalarOk s) {r : Str}
    (hr : ∀ c, r.head? = some c → isStop c = true) (n : Nat) :
    parseValue (n + 1) (scalarText s ++ r) = some (.ok (scalarValue s, r)) := by
  rcases scalar_cases s with ⟨d, t, rfl⟩ | hs
  · have hq := quote_facts d
    have htext : scalarText (.str d t) ++ r = quoteOf d :: (t ++ quoteOf d :: r) := by simp [scalarText]
    rw [htext, parseValue]
    have hsk : skip (quoteOf d :: (t ++ quoteOf d :: r)) = quoteOf d :: (t ++ quoteOf d :: r) := by
      unfold skip
      rw [List.dropWhile_cons, hq.2.2.2.1]
      simp
    rw [hsk]
    simp only
    rw [if_neg hq.2.1, if_pos hq.1]
    unfold parseString
    rw [find1_append hok.1]
    rfl
  · have hchars := number_chars hs
    have hne := number_ne s
    obtain ⟨c, t, hct⟩ := List.exists_cons_of_ne_nil hne
    have hc : numChar c := hchars c (by rw [hct]; simp)
    have hf := numChar_facts hc
    rw [parseValue]
    have hsk : skip (scalarText s ++ r) = scalarText s ++ r := by
      unfold skip
      rw [hct, List.cons_append, List.dropWhile_cons, hf.2.1]
      simp
    rw [hsk]
    have : scalarText s ++ r = c :: (t ++ r) := by rw [hct]; rfl
    rw [this]
    simp only
    rw [if_neg hf.2.2.2.2.1, if_neg (by rintro (h | h); exact hf.2.2.1 h; exact hf.2.2.2.1 h), ← this]
    obtain ⟨h1, h2⟩ := takeWhile_stop (t := scalarText s) (r := r) (p := fun c => !isStop c)
      (fun x hx => by simp [(numChar_facts (hchars x hx)).1]) (fun x hx => by simp [hr x hx])
    unfold parseBare
    simp only
    rw [h1, h2]
    have htight : trim (scalarText s) = scalarText s := by
      apply trim_tight
      apply tight_of_all
      intro x hx
      have := (numChar_facts (hchars x hx)).2.1
      simp only [isDelim, Bool.or_eq_false_iff] at this
      exact this.1
    rw [htight, if_neg hne, parseScalar_number hok hs]

theorem scan_number {t : Str} (h : ∀ c ∈ t, numChar c) (d : Int) : t.foldl scanStep (d, none) = (d, none) := by
  induction t with
  | nil => rfl
  | cons c t ih =>
    have hf := numChar_facts (h c (by simp))
    rw [List.foldl_cons]
    have : scanStep (d, none) c = (d, none) := by
      simp [scanStep, hf.2.2.1, hf.2.2.2.1, hf.2.2.2.2.1, hf.2.2.2.2.2.1]
    rw [this]
    exact ih (fun x hx => h x (by simp [hx]))

theorem scan_quoted {q : Char} {t : Str} (h : q ∉ t) (d : Int) :
    t.foldl scanStep (d, some q) = (d, some q) := by
  induction t with
  | nil => rfl
  | cons c t ih =>
    simp only [List.mem_cons, not_or] at h
    rw [List.foldl_cons]
    have : scanStep (d, some q) c = (d, some q) := by simp [scanStep, Ne.symm h.1]
    rw [this]
    exact ih h.2

theorem scan_scalar {s : Scalar} (hok : ScalarOk s) (d : Int) :
    (scalarText s).foldl scanStep (d, none) = (d, none) := by
  rcases scalar_cases s with ⟨b, t, rfl⟩ | hs
  · have hq := quote_facts b
    simp only [scalarText, List.cons_append, List.foldl_cons, List.foldl_append, List.foldl_nil]
    have h1 : scanStep (d, none) (quoteOf b) = (d, some (quoteOf b)) := by simp [scanStep, hq.1]
    rw [h1, scan_quoted hok.1]
    simp [scanStep]
  · exact scan_number (number_chars hs) d

theorem scalar_no_comment {s : Scalar} (hok : ScalarOk s) : find2 '/' '*' (scalarText s) = none := by
  rcases scalar_cases s with ⟨b, t, rfl⟩ | hs
  · have hq := quote_facts b
    have : scalarText (.str b t) = [quoteOf b] ++ (t ++ [quoteOf b]) := rfl
    rw [this]
    apply find2_append
    · exact find2_none_of_not_mem (by simpa using hq.2.2.2.2.2.2.1.symm)
    · apply find2_append hok.2.2
      · exact find2_none_of_not_mem (by simpa using hq.2.2.2.2.2.2.1.symm)
      · exact Or.inr (by simpa using hq.2.2.2.2.2.2.2.1)
    · exact Or.inl (by simpa using hq.2.2.2.2.2.2.1)
  · exact find2_none_of_not_mem (fun h => (numChar_facts (number_chars hs _ h)).2.2.2.2.2.2.2.2.1 rfl)

theorem scalar_no_plus {s : Scalar} (hok : NoPlusEq s) : find2 '+' '=' (scalarText s) = none := by
  rcases scalar_cases s with ⟨b, t, rfl⟩ | hs
  · have hq := quote_facts b
    have : scalarText (.str b t) = [quoteOf b] ++ (t ++ [quoteOf b]) := rfl
    rw [this]
    apply find2_append
    · exact find2_none_of_not_mem (by simpa using hq.2.2.2.2.2.2.2.2.1.symm)
    · apply find2_append hok
      · exact find2_none_of_not_mem (by simpa using hq.2.2.2.2.2.2.2.2.1.symm)
      · exact Or.inr (by simpa using hq.2.2.2.2.2.2.2.2.2.1)
    · exact Or.inl (by simpa using hq.2.2.2.2.2.2.2.2.1)
  · exact find2_none_of_not_mem (fun h => (numChar_facts (number_chars hs _ h)).2.2.2.2.2.2.2.2.2.1 rfl)

/-- First and last character of a scalar text: no separator, no marker. -/
def edgeChar (c : Char) : Prop := isWs c = false ∧ isDelim c = false ∧ c ≠ ')' ∧ c ≠ '\\' ∧ c ≠ '/' ∧ c ≠ '+' ∧
  c ≠ '\n' ∧ c ≠ '\r'

theorem edge_number {c : Char} (h : numChar c) : edgeChar c := by
  obtain ⟨h1, h2, h3, h4, h5, h6, h7, h8, h9, h10, h11⟩ := numChar_facts h
  refine ⟨?_, h2, h6, h8, h9, h10, h7, h11⟩
  simp only [isDelim, Bool.or_eq_false_iff] at h2
  exact h2.1

theorem scalar_head (s : Scalar) : ∃ c t, scalarText s = c :: t ∧ edgeChar c ∧ c ≠ '*' ∧ c ≠ '=' := by
  rcases scalar_cases s with ⟨b, t, rfl⟩ | hs
  · obtain ⟨_, _, h3, h4, h5, h6, h7, h8, h9, h10, h11, h12⟩ := quote_facts b
    exact ⟨quoteOf b, t ++ [quoteOf b], rfl, ⟨h12, h4, h3, h6, h7, h9, h5, h11⟩, h8, h10⟩
  · obtain ⟨c, t, hct⟩ := List.exists_cons_of_ne_nil (number_ne s)
    have hn := number_chars hs c (by rw [hct]; simp)
    refine ⟨c, t, hct, edge_number hn, ?_, ?_⟩
    · rintro rfl
      rcases hn with h | h | h <;> revert h <;> decide
    · rintro rfl
      rcases hn with h | h | h <;> revert h <;> decide

theorem scalar_last (s : Scalar) : ∃ c t, scalarText s = t ++ [c] ∧ edgeChar c := by
  rcases scalar_cases s with ⟨b, t, rfl⟩ | hs
  · obtain ⟨_, _, h3, h4, h5, h6, h7, h8, h9, h10, h11, h12⟩ := quote_facts b
    exact ⟨quoteOf b, quoteOf b :: t, rfl, ⟨h12, h4, h3, h6, h7, h9, h5, h11⟩⟩
  · have hne := number_ne s
    refine ⟨(scalarText s).getLast hne, (scalarText s).dropLast, (List.dropLast_append_getLast hne).symm, ?_⟩
    exact edge_number (number_chars hs _ (List.getLast_mem hne))

theorem scalar_no_nl {s : Scalar} (hok : ScalarOk s) : '\n' ∉ scalarText s := by
  rcases scalar_cases s with ⟨b, t, rfl⟩ | hs
  · have hq := quote_facts b
    simp only [scalarText, List.cons_append, List.mem_cons, List.mem_append, List.not_mem_nil, or_false, not_or]
    exact ⟨hq.2.2.2.2.1.symm, hok.2.1, hq.2.2.2.2.1.symm⟩
  · exact fun h => (numChar_facts (number_chars hs _ h)).2.2.2.2.2.2.1 rfl

/-! ### Array bodies -/

/-- Separated scalars. -/
def bodyText (l : List (Str × Scalar)) : Str := l.flatMap (fun x => x.1 ++ scalarText x.2)

/-- A separator. -/
def SepOk (s : Str) : Prop := s = [' '] ∨ s = [',', ' ']

theorem sep_ok (c : Bool) : SepOk (sep c) := by cases c <;> simp [SepOk, sep]

theorem skip_sep {s : Str} (h : SepOk s) (t : Str) : skip (s ++ t) = skip t := by
  rcases h with rfl | rfl
  · simp [skip, isDelim, isWs]
  · simp [skip, isDelim, isWs]

theorem sep_stop {s : Str} (h : SepOk s) (t : Str) : ∀ c, (s ++ t).head? = some c → isStop c = true := by
  rcases h with rfl | rfl <;> · intro c hc; simp at hc; subst hc; decide

theorem bodyText_cons (x : Str × Scalar) (l : List (Str × Scalar)) :
    bodyText (x :: l) = x.1 ++ (scalarText x.2 ++ bodyText l) := by simp [bodyText]

theorem body_stop {l : List (Str × Scalar)} (h : ∀ x ∈ l, SepOk x.1) (r : Str) :
    ∀ c, (bodyText l ++ ' ' :: ')' :: r).head? = some c → isStop c = true := by
  cases l with
  | nil => intro c hc; simp [bodyText] at hc; subst hc; decide
  | cons x l =>
    rw [bodyText_cons, List.append_assoc]
    exact sep_stop (h x (by simp)) _

theorem parseArray_body {l : List (Str × Scalar)} (h : ∀ x ∈ l, SepOk x.1 ∧ ScalarOk x.2) (r : Str) :
    ∀ (n : Nat) (acc : List TextValue), l.length + 2 ≤ n →
      parseArray n (bodyText l ++ ' ' :: ')' :: r) acc =
        some (.ok (.array (acc ++ l.map (fun x => scalarValue x.2)), r)) := by
  induction l with
  | nil =>
    intro n acc hn
    obtain ⟨n, rfl⟩ : ∃ m, n = m + 1 := ⟨n - 1, by omega⟩
    rw [parseArray]
    have : skip (bodyText [] ++ ' ' :: ')' :: r) = ')' :: r := by
      have : isDelim ')' = false := by decide
      simp [bodyText, skip, isDelim, isWs, List.dropWhile_cons]
    rw [this]
    simp
  | cons x l ih =>
    intro n acc hn
    simp only [List.length_cons] at hn
    obtain ⟨n, rfl⟩ : ∃ m, n = m + 2 := ⟨n - 2, by omega⟩
    have hx := h x (by simp)
    obtain ⟨c, t, hct, hc, _⟩ := scalar_head x.2
    rw [parseArray, bodyText_cons, List.append_assoc, skip_sep hx.1, List.append_assoc]
    have hsk : skip (scalarText x.2 ++ (bodyText l ++ ' ' :: ')' :: r)) =
        c :: (t ++ (bodyText l ++ ' ' :: ')' :: r)) := by
      rw [hct, List.cons_append]
      unfold skip
      rw [List.dropWhile_cons, hc.2.1]
      simp
    rw [hsk]
    simp only
    rw [if_neg hc.2.2.1, show c :: (t ++ (bodyText l ++ ' ' :: ')' :: r)) =
      scalarText x.2 ++ (bodyText l ++ ' ' :: ')' :: r) by rw [hct]; rfl,
      parseValue_scalar hx.2 (body_stop (fun y hy => (h y (by simp [hy])).1) r)]
    simp only
    rw [ih (fun y hy => h y (by simp [hy])) (n + 1) _ (by omega)]
    simp

theorem scan_sep {s : Str} (h : SepOk s) (d : Int) : s.foldl scanStep (d, none) = (d, none) := by
  rcases h with rfl | rfl <;> simp [scanStep]

theorem scan_body {l : List (Str × Scalar)} (h : ∀ x ∈ l, SepOk x.1 ∧ ScalarOk x.2) (d : Int) :
    (bodyText l).foldl scanStep (d, none) = (d, none) := by
  induction l with
  | nil => rfl
  | cons x l ih =>
    have hx := h x (by simp)
    rw [bodyText_cons, List.foldl_append, List.foldl_append, scan_sep hx.1, scan_scalar hx.2]
    exact ih (fun y hy => h y (by simp [hy]))

theorem body_length {l : List (Str × Scalar)} (h : ∀ x ∈ l, SepOk x.1) : l.length ≤ (bodyText l).length := by
  induction l with
  | nil => simp
  | cons x l ih =>
    have := ih (fun y hy => h y (by simp [hy]))
    have h1 : 0 < x.1.length := by
      rcases h x (by simp) with h | h <;> rw [h] <;> simp
    rw [bodyText_cons]
    simp; omega

/-- A two-character pattern absent from a body: absent from the scalars, whose last character does not
open it, and not opened by a separator. -/
theorem body_no_pat {a b : Char} (ha : a ≠ ' ' ∧ a ≠ ',') {l : List (Str × Scalar)}
    (h : ∀ x ∈ l, SepOk x.1 ∧ find2 a b (scalarText x.2) = none)
    (hlast : ∀ c, edgeChar c → c ≠ a) : find2 a b (bodyText l) = none ∧ (bodyText l).getLast? ≠ some a := by
  induction l using List.reverseRecOn with
  | nil => simp [bodyText, find2]
  | append_singleton l x ih =>
    obtain ⟨ih1, ih2⟩ := ih (fun y hy => h y (by simp [hy]))
    have hx := h x (by simp)
    have hb : bodyText (l ++ [x]) = bodyText l ++ (x.1 ++ scalarText x.2) := by simp [bodyText]
    have hsep : find2 a b x.1 = none ∧ x.1.getLast? ≠ some a := by
      rcases hx.1 with h' | h' <;> rw [h']
      · exact ⟨find2_none_of_not_mem (by simpa using ha.1), by simpa using ha.1.symm⟩
      · exact ⟨find2_none_of_not_mem (by simpa using ⟨ha.2, ha.1⟩), by simpa using ha.1.symm⟩
    rw [hb]
    constructor
    · exact find2_append ih1 (find2_append hsep.1 hx.2 (Or.inl hsep.2)) (Or.inl ih2)
    · obtain ⟨c, t, hct, hc⟩ := scalar_last x.2
      rw [hct]
      simpa [← List.append_assoc] using hlast c hc

/-! ### Values and statements -/

/-- The text of a right-hand side and its value. -/
structure ValueOk (app : Bool) (t : Str) (v : TextValue) : Prop where
  head : ∃ c r, t = c :: r ∧ isWs c = false ∧ c ≠ '*' ∧ c ≠ '='
  last : ∃ c r, t = r ++ [c] ∧ isWs c = false ∧ c ≠ '\r'
  scan : ∀ d, t.foldl scanStep (d, none) = (d, none)
  parses : parseWhole t = some (.ok v)
  nl : '\n' ∉ t
  comment : find2 '/' '*' t = none
  plus : app = false → find2 '+' '=' t = none

theorem skip_nil : skip [] = [] := rfl

theorem value_scalar {app : Bool} {s : Scalar} (hok : ScalarOk s) (hp : app = false → NoPlusEq s) :
    ValueOk app (scalarText s) (scalarValue s) := by
  obtain ⟨c, t, h1, h2, h3, h4⟩ := scalar_head s
  obtain ⟨c', t', h1', h2'⟩ := scalar_last s
  refine ⟨⟨c, t, h1, h2.1, h3, h4⟩, ⟨c', t', h1', h2'.1, h2'.2.2.2.2.2.2.2⟩, scan_scalar hok, ?_, scalar_no_nl hok,
    scalar_no_comment hok, fun h => scalar_no_plus (hp h)⟩
  have := parseValue_scalar hok (r := []) (by simp) (2 * (scalarText s).length + 1)
  rw [List.append_nil] at this
  unfold parseWhole valueFuel
  rw [this]
  simp [skip_nil]

/-- An array. -/
def arrayText (l : List (Str × Scalar)) : Str := '(' :: (bodyText l ++ [' ', ')'])

theorem bodyText_no_nl {l : List (Str × Scalar)} (h : ∀ x ∈ l, SepOk x.1 ∧ ScalarOk x.2) :
    '\n' ∉ bodyText l := by
  intro hm
  unfold bodyText at hm
  rw [List.mem_flatMap] at hm
  obtain ⟨x, hx, hm⟩ := hm
  rw [List.mem_append] at hm
  rcases hm with hm | hm
  · rcases (h x hx).1 with h' | h' <;> rw [h'] at hm <;> simp at hm
  · exact scalar_no_nl (h x hx).2 hm

theorem value_array {app : Bool} {l : List (Str × Scalar)} (h : ∀ x ∈ l, SepOk x.1 ∧ ScalarOk x.2)
    (hp : app = false → ∀ x ∈ l, NoPlusEq x.2) :
    ValueOk app (arrayText l) (.array (l.map (fun x => scalarValue x.2))) := by
  have hpat : ∀ a b : Char, a ≠ ' ' → a ≠ ',' → a ≠ '(' → (∀ x ∈ l, find2 a b (scalarText x.2) = none) →
      (∀ c, edgeChar c → c ≠ a) → find2 a b (arrayText l) = none := by
    intro a b h1 h2 h3 hx hl
    obtain ⟨b1, b2⟩ := body_no_pat (b := b) ⟨h1, h2⟩ (fun x hx' => ⟨(h x hx').1, hx x hx'⟩) hl
    have e1 : arrayText l = ['('] ++ (bodyText l ++ [' ', ')']) := rfl
    rw [e1]
    apply find2_append
    · exact find2_none_of_not_mem (by simpa using h3)
    · apply find2_append b1
      · by_cases ha : a = ')'
        · subst ha; simp [find2]
        · exact find2_none_of_not_mem (by simp [h1, ha])
      · exact Or.inl b2
    · exact Or.inl (by simpa using h3.symm)
  refine ⟨⟨'(', _, rfl, by decide, by decide, by decide⟩, ⟨')', '(' :: (bodyText l ++ [' ']), by simp [arrayText], by decide, by decide⟩,
    ?_, ?_, ?_, ?_, ?_⟩
  · intro d
    unfold arrayText
    rw [List.foldl_cons]
    have h1 : scanStep (d, none) '(' = (d + 1, none) := by simp [scanStep]
    rw [h1, List.foldl_append, scan_body h]
    simp [scanStep]
  · unfold parseWhole valueFuel
    have hlen : 2 * (arrayText l).length + 2 = (2 * (bodyText l).length + 7) + 1 := by
      simp [arrayText]; ring
    rw [hlen, parseValue]
    have hsk : skip (arrayText l) = '(' :: (bodyText l ++ ' ' :: ')' :: []) := by
      simp [arrayText, skip, isDelim, isWs]
    rw [hsk]
    simp only [if_true]
    have := body_length (fun x hx => (h x hx).1)
    rw [parseArray_body h [] _ [] (by omega)]
    simp [skip_nil]
  · unfold arrayText
    simp only [List.mem_cons, List.mem_append, List.not_mem_nil, or_false, not_or]
    exact ⟨by decide, bodyText_no_nl h, by decide, by decide⟩
  · exact hpat '/' '*' (by decide) (by decide) (by decide) (fun x hx => scalar_no_comment (h x hx).2)
      (fun c hc => hc.2.2.2.2.1)
  · intro happ
    exact hpat '+' '=' (by decide) (by decide) (by decide) (fun x hx => scalar_no_plus (hp happ x hx))
      (fun c hc => hc.2.2.2.2.2.1)

theorem keyChar_facts {c : Char} (h : keyChar c) : isWs c = false ∧ c ≠ '=' ∧ c ≠ '+' ∧ c ≠ '(' ∧ c ≠ ')' ∧
    c ≠ '\'' ∧ c ≠ '"' ∧ c ≠ '\\' ∧ c ≠ '*' ∧ c ≠ '\n' := by
  rcases h with h | rfl | rfl | rfl | rfl
  · have hne : ∀ d : Char, d.isAlphanum = false → c ≠ d := by
      rintro d hd rfl
      rw [h] at hd
      simp at hd
    refine ⟨?_, ?_, ?_, ?_, ?_, ?_, ?_, ?_, ?_, ?_⟩
    · simp only [Char.isAlphanum, Char.isAlpha, Char.isUpper, Char.isLower, Char.isDigit, Bool.or_eq_true,
        Bool.and_eq_true, decide_eq_true_eq] at h
      have e : c.toNat = c.val.toNat := rfl
      simp only [ge_iff_le, UInt32.le_iff_toNat_le] at h
      simp only [isWs, e]
      simp at h ⊢
      omega
    all_goals exact hne _ (by decide)
  all_goals decide

theorem scan_key {k : Str} (h : ∀ c ∈ k, keyChar c) (d : Int) : k.foldl scanStep (d, none) = (d, none) := by
  induction k with
  | nil => rfl
  | cons c t ih =>
    have hf := keyChar_facts (h c (by simp))
    rw [List.foldl_cons]
    have : scanStep (d, none) c = (d, none) := by
      simp [scanStep, hf.2.2.2.1, hf.2.2.2.2.1, hf.2.2.2.2.2.1, hf.2.2.2.2.2.2.1]
    rw [this]
    exact ih (fun x hx => h x (by simp [hx]))

/-- The assignment operator with blanks. -/
def opText (app : Bool) : Str := if app then " += ".toList else " = ".toList

theorem op_scan (app : Bool) (d : Int) : (opText app).foldl scanStep (d, none) = (d, none) := by
  cases app <;> simp [opText, scanStep]

theorem trim_key {k : Str} (h : ∀ c ∈ k, keyChar c) : trim (k ++ [' ']) = k := by
  have ht : Tight k := tight_of_all (fun c hc => (keyChar_facts (h c hc)).1)
  have := trim_padRight ht (k.length + 1)
  simpa [padRight] using this

theorem trim_value {app : Bool} {t : Str} {v : TextValue} (h : ValueOk app t v) : trim (' ' :: t) = t := by
  obtain ⟨c, r, h1, h2, _⟩ := h.head
  obtain ⟨c', r', h1', h2', _⟩ := h.last
  have ht : Tight t := by
    constructor
    · intro x hx
      rw [h1] at hx
      simp at hx
      rw [← hx]; exact h2
    · intro x hx
      rw [h1'] at hx
      simp at hx
      rw [← hx]; exact h2'
  have := trim_padLeft ht (t.length + 1)
  simpa [padLeft] using this

theorem splitAssign_ok {k : Str} (hk : ∀ c ∈ k, keyChar c) {app : Bool} {t : Str} {v : TextValue}
    (h : ValueOk app t v) : splitAssign (k ++ (opText app ++ t)) = some (k ++ [' '], ' ' :: t, app) := by
  unfold splitAssign
  cases app with
  | true =>
    have e : k ++ (opText true ++ t) = (k ++ [' ']) ++ '+' :: '=' :: (' ' :: t) := by simp [opText]
    rw [e, find2_found]
    simp only [List.mem_append, List.mem_singleton, not_or]
    exact ⟨fun hm => (keyChar_facts (hk _ hm)).2.2.1 rfl, by decide⟩
  | false =>
    have hn : find2 '+' '=' (k ++ (opText false ++ t)) = none := by
      apply find2_append
      · exact find2_none_of_not_mem (fun hm => (keyChar_facts (hk _ hm)).2.2.1 rfl)
      · apply find2_append
        · decide
        · exact h.plus rfl
        · exact Or.inl (by decide)
      · exact Or.inr (by simp [opText])
    rw [hn]
    have e : k ++ (opText false ++ t) = (k ++ [' ']) ++ '=' :: (' ' :: t) := by simp [opText]
    rw [e, find1_append]
    simp only [List.mem_append, List.mem_singleton, not_or]
    exact ⟨fun hm => (keyChar_facts (hk _ hm)).2.1 rfl, by decide⟩

theorem parseAssignment_ok {k : Str} (hne : k ≠ []) (hk : ∀ c ∈ k, keyChar c) {app : Bool} {t : Str} {v : TextValue}
    (h : ValueOk app t v) : parseAssignment (k ++ (opText app ++ t)) = some (.ok (upper k, app, v)) := by
  unfold parseAssignment
  rw [splitAssign_ok hk h]
  simp only
  rw [trim_key hk, if_neg hne, trim_value h, h.parses]

/-! ### Lines -/

theorem lower_backslash {c : Char} (h : lower c = '\\') : c = '\\' := by
  unfold lower at h
  split at h
  · rename_i hc
    exfalso
    have h1 : 65 ≤ c.toNat := hc.1
    have h2 : c.toNat ≤ 90 := hc.2
    generalize c.toNat = n at *
    interval_cases n <;> revert h <;> decide
  · exact h

theorem not_marker {t : Str} (h : t.head? ≠ some '\\') {m : Str}
    (hm : m.head? = some '\\') : eqIgnoreCase t m = false := by
  obtain ⟨w, rfl⟩ : ∃ w, m = '\\' :: w := by
    cases m with
    | nil => simp at hm
    | cons c w => exact ⟨w, by simp at hm; rw [hm]⟩
  unfold eqIgnoreCase
  rw [beq_eq_false_iff_ne]
  intro he
  cases t with
  | nil => simp at he
  | cons c t =>
    simp only [List.map_cons, List.cons.injEq] at he
    have : lower '\\' = '\\' := by decide
    rw [this] at he
    exact h (by rw [lower_backslash he.1]; rfl)

/-- A line of an assignment. -/
structure GoodLine (l : Str) : Prop where
  head : ∃ c r, l = c :: r ∧ isWs c = false ∧ c ≠ '\\'
  last : ∃ c r, l = r ++ [c] ∧ isWs c = false ∧ c ≠ '\r'
  nl : '\n' ∉ l
  comment : find2 '/' '*' l = none

theorem GoodLine.trim {l : Str} (h : GoodLine l) : trim l = l := by
  obtain ⟨c, r, h1, h2, _⟩ := h.head
  obtain ⟨c', r', h1', h2', _⟩ := h.last
  apply trim_tight
  constructor
  · intro x hx
    rw [h1] at hx
    simp at hx
    rw [← hx]; exact h2
  · intro x hx
    rw [h1'] at hx
    simp at hx
    rw [← hx]; exact h2'

theorem GoodLine.lineOk {l : Str} (h : GoodLine l) : LineOk l := by
  refine ⟨h.nl, ?_⟩
  obtain ⟨c', r', h1', _, h3⟩ := h.last
  rw [h1']
  simpa using h3

theorem stripComments_none {n : Nat} {s : Str} (h : find2 '/' '*' s = none) : stripComments n s = s := by
  cases n with
  | zero => rfl
  | succ n => simp [stripComments, h]

theorem not_comment_line {l : Str} (h : find2 '/' '*' l = none) : "/*".toList.isPrefixOf l = false := by
  rw [Bool.eq_false_iff]
  intro hp
  match l, hp with
  | [], hp => simp at hp
  | [_], hp => simp at hp
  | a :: b :: r, hp =>
    simp at hp
    obtain ⟨rfl, rfl⟩ := hp
    simp [find2] at h

/-- The statement after another line. -/
def extend (stmt l : Str) : Str := (if stmt = [] then [] else stmt ++ [' ']) ++ l

theorem stepLine_good {l : Str} (h : GoodLine l) (d : Data) (stmt : Str) :
    stepLine ⟨d, true, stmt⟩ l =
      if !complete (extend stmt l) then some (.ok ⟨d, true, extend stmt l⟩)
      else
        match parseAssignment (extend stmt l) with
        | none => none
        | some (.error x) => some (.error x)
        | some (.ok (k, app, v)) => some (.ok ⟨store d k app v, true, []⟩) := by
  obtain ⟨c, r, h1, h2, h3⟩ := h.head
  have hh : l.head? ≠ some '\\' := by rw [h1]; simpa using h3
  have hne : l ≠ [] := by rw [h1]; simp
  unfold stepLine
  dsimp only
  rw [h.trim, not_marker hh (m := "\\begindata".toList) rfl, not_marker hh (m := "\\begintext".toList) rfl, not_comment_line h.comment, stripComments_none h.comment, h.trim]
  simp only [Bool.false_eq_true, if_false, Bool.not_true, Bool.false_and, hne]
  rfl

theorem head_good {a : Assign} (hk : a.key ≠ []) (hkc : ∀ c ∈ a.key, keyChar c) {t : Str} {v : TextValue}
    (ht : ValueOk a.append t v) : GoodLine (headText a ++ t) := by
  have e : headText a ++ t = a.key ++ (opText a.append ++ t) := by simp [headText, opText]
  rw [e]
  obtain ⟨c, r, hc⟩ := List.exists_cons_of_ne_nil hk
  have hcf := keyChar_facts (hkc c (by rw [hc]; simp))
  obtain ⟨c', r', h1', h2', h3'⟩ := ht.last
  refine ⟨⟨c, r ++ (opText a.append ++ t), by rw [hc]; rfl, hcf.1, hcf.2.2.2.2.2.2.2.1⟩,
    ⟨c', a.key ++ (opText a.append ++ r'), by rw [h1']; simp, h2', h3'⟩, ?_, ?_⟩
  · simp only [List.mem_append, not_or]
    refine ⟨fun hm => (keyChar_facts (hkc _ hm)).2.2.2.2.2.2.2.2.2 rfl, ?_, ht.nl⟩
    cases a.append <;> decide
  · apply find2_append
    · exact find2_none_of_not_mem' (fun hm => (keyChar_facts (hkc _ hm)).2.2.2.2.2.2.2.2.1 rfl)
    · apply find2_append
      · cases a.append <;> decide
      · exact ht.comment
      · exact Or.inl (by cases a.append <;> decide)
    · exact Or.inr (by cases a.append <;> simp [opText])

theorem complete_statement {k : Str} (hkc : ∀ c ∈ k, keyChar c) {app : Bool} {t : Str} {v : TextValue}
    (ht : ValueOk app t v) : complete (k ++ (opText app ++ t)) = true := by
  unfold complete
  rw [List.foldl_append, List.foldl_append, scan_key hkc, op_scan, ht.scan]
  rfl

/-- A whole assignment on one line. -/
theorem stepLine_assign {a : Assign} (hk : a.key ≠ []) (hkc : ∀ c ∈ a.key, keyChar c) {t : Str} {v : TextValue}
    (ht : ValueOk a.append t v) (d : Data) :
    stepLine ⟨d, true, []⟩ (headText a ++ t) = some (.ok ⟨store d (upper a.key) a.append v, true, []⟩) := by
  have e : headText a ++ t = a.key ++ (opText a.append ++ t) := by simp [headText, opText]
  rw [stepLine_good (head_good hk hkc ht)]
  have ex : extend [] (headText a ++ t) = a.key ++ (opText a.append ++ t) := by simp [extend, e]
  rw [ex, complete_statement hkc ht, parseAssignment_ok hk hkc ht]
  rfl

/-- The scalars of rows with their separators in the joined statement. -/
def rowElems (comma : Bool) (l : List (Scalar × List Scalar)) : List (Str × Scalar) :=
  l.flatMap (fun r => ([' '], r.1) :: r.2.map (fun x => (sep comma, x)))

theorem rowElems_text (comma : Bool) (l : List (Scalar × List Scalar)) :
    bodyText (rowElems comma l) = l.flatMap (fun r => ' ' :: rowText comma r) := by
  induction l with
  | nil => rfl
  | cons r l ih =>
    have : rowElems comma (r :: l) = (([' '], r.1) :: r.2.map (fun x => (sep comma, x))) ++ rowElems comma l := by
      simp [rowElems]
    rw [this]
    have hb : ∀ a b, bodyText (a ++ b) = bodyText a ++ bodyText b := by intro a b; simp [bodyText]
    rw [hb, ih, List.flatMap_cons]
    congr 1
    simp [bodyText, rowText, List.flatMap_map]

theorem rowElems_ok {comma : Bool} {l : List (Scalar × List Scalar)}
    {P : Scalar → Prop} (h : ∀ s ∈ rhsScalars (.rows l), P s) : ∀ x ∈ rowElems comma l, SepOk x.1 ∧ P x.2 := by
  intro x hx
  unfold rowElems at hx
  rw [List.mem_flatMap] at hx
  obtain ⟨r, hr, hx⟩ := hx
  have hmem : ∀ s ∈ r.1 :: r.2, P s := fun s hs => h s (List.mem_flatMap.mpr ⟨r, hr, hs⟩)
  rw [List.mem_cons] at hx
  rcases hx with rfl | hx
  · exact ⟨Or.inl rfl, hmem r.1 (by simp)⟩
  · rw [List.mem_map] at hx
    obtain ⟨y, hy, rfl⟩ := hx
    exact ⟨sep_ok comma, hmem y (by simp [hy])⟩

theorem rowElems_values (comma : Bool) (l : List (Scalar × List Scalar)) :
    TextValue.array ((rowElems comma l).map (fun x => scalarValue x.2)) = rhsValue (.rows l) := by
  unfold rhsValue rowElems
  congr 1
  rw [List.map_flatMap]
  congr 1
  funext r
  simp

theorem unwords_pieces (x y : Str) (l : List Str) :
    unwords (x :: (l ++ [y])) = x ++ (l.flatMap (fun z => ' ' :: z) ++ ' ' :: y) := by
  induction l generalizing x with
  | nil => simp [unwords]
  | cons z l ih =>
    rw [List.cons_append, unwords, ih]
    simp

theorem array_statement (a : Assign) (l : List (Scalar × List Scalar)) :
    unwords (pieces a l) = headText a ++ arrayText (rowElems a.comma l) := by
  unfold pieces
  rw [unwords_pieces]
  unfold arrayText
  rw [rowElems_text, List.flatMap_map]
  simp

theorem row_good {comma : Bool} {r : Scalar × List Scalar} (h : ∀ s ∈ r.1 :: r.2, ScalarOk s) :
    GoodLine (rowText comma r) := by
  obtain ⟨c, t, h1, h2, h3, _⟩ := scalar_head r.1
  have hb : rowText comma r = scalarText r.1 ++ bodyText (r.2.map (fun x => (sep comma, x))) := by
    simp [rowText, bodyText, List.flatMap_map]
  have hok : ∀ x ∈ r.2.map (fun x => (sep comma, x)), SepOk x.1 ∧ ScalarOk x.2 := by
    intro x hx
    rw [List.mem_map] at hx
    obtain ⟨y, hy, rfl⟩ := hx
    exact ⟨sep_ok comma, h y (by simp [hy])⟩
  rw [hb]
  refine ⟨⟨c, t ++ bodyText (r.2.map (fun x => (sep comma, x))), by rw [h1]; rfl, h2.1, h2.2.2.2.1⟩, ?_, ?_, ?_⟩
  · rcases List.eq_nil_or_concat r.2 with hr | ⟨m, z, hr⟩
    · obtain ⟨c', t', h1', h2'⟩ := scalar_last r.1
      refine ⟨c', t', ?_, h2'.1, h2'.2.2.2.2.2.2.2⟩
      rw [hr]
      simpa [bodyText] using h1'
    · obtain ⟨c', t', h1', h2'⟩ := scalar_last z
      refine ⟨c', scalarText r.1 ++ (bodyText (m.map (fun x => (sep comma, x))) ++ (sep comma ++ t')), ?_, h2'.1,
        h2'.2.2.2.2.2.2.2⟩
      rw [hr]
      simp [bodyText, h1']
  · rw [List.mem_append, not_or]
    exact ⟨scalar_no_nl (h r.1 (by simp)), bodyText_no_nl hok⟩
  · apply find2_append (scalar_no_comment (h r.1 (by simp)))
    · exact (body_no_pat ⟨by decide, by decide⟩ (fun x hx => ⟨(hok x hx).1, scalar_no_comment (hok x hx).2⟩)
        (fun c hc => hc.2.2.2.2.1)).1
    · obtain ⟨c', t', h1', h2'⟩ := scalar_last r.1
      left
      rw [h1']
      simpa using h2'.2.2.2.2.1

theorem row_scan {comma : Bool} {r : Scalar × List Scalar} (h : ∀ s ∈ r.1 :: r.2, ScalarOk s) (d : Int) :
    (rowText comma r).foldl scanStep (d, none) = (d, none) := by
  have hb : rowText comma r = scalarText r.1 ++ bodyText (r.2.map (fun x => (sep comma, x))) := by
    simp [rowText, bodyText, List.flatMap_map]
  rw [hb, List.foldl_append, scan_scalar (h r.1 (by simp)), scan_body]
  intro x hx
  rw [List.mem_map] at hx
  obtain ⟨y, hy, rfl⟩ := hx
  exact ⟨sep_ok comma, h y (by simp [hy])⟩

/-- The rows of an array after its first line. -/
theorem runLines_rows {comma : Bool} {l : List (Scalar × List Scalar)}
    (h : ∀ s ∈ rhsScalars (.rows l), ScalarOk s) (d : Data) (more : List Str) :
    ∀ stmt : Str, stmt ≠ [] → stmt.foldl scanStep (0, none) = (1, none) →
      runLines (l.map (rowText comma) ++ more) ⟨d, true, stmt⟩ =
        runLines more ⟨d, true, stmt ++ l.flatMap (fun r => ' ' :: rowText comma r)⟩ := by
  induction l with
  | nil => intro stmt _ _; simp
  | cons r l ih =>
    intro stmt hne hsc
    have hr : ∀ s ∈ r.1 :: r.2, ScalarOk s := fun s hs => h s (by
      simp only [rhsScalars, List.flatMap_cons, List.mem_append]; exact Or.inl hs)
    rw [List.map_cons, List.cons_append, runLines, stepLine_good (row_good hr)]
    have hex : extend stmt (rowText comma r) = stmt ++ ' ' :: rowText comma r := by simp [extend, hne]
    have hsc' : (stmt ++ ' ' :: rowText comma r).foldl scanStep (0, none) = (1, none) := by
      rw [List.foldl_append, hsc, List.foldl_cons]
      have : scanStep (1, none) ' ' = (1, none) := by simp [scanStep]
      rw [this, row_scan hr]
    have hc : complete (extend stmt (rowText comma r)) = false := by
      unfold complete
      rw [hex, hsc']
      rfl
    rw [hc]
    simp only [Bool.not_false, if_true]
    rw [hex, ih (fun s hs => h s (by
      simp only [rhsScalars, List.flatMap_cons, List.mem_append]; exact Or.inr hs)) _ (by simp) hsc']
    simp

theorem paren_good : GoodLine [')'] :=
  ⟨⟨')', [], rfl, by decide, by decide⟩, ⟨')', [], rfl, by decide, by decide⟩, by decide, by decide⟩

theorem first_good {a : Assign} (hk : a.key ≠ []) (hkc : ∀ c ∈ a.key, keyChar c) :
    GoodLine (headText a ++ ['(']) := by
  have e : headText a ++ ['('] = a.key ++ (opText a.append ++ ['(']) := by simp [headText, opText]
  rw [e]
  obtain ⟨c, r, hc⟩ := List.exists_cons_of_ne_nil hk
  have hcf := keyChar_facts (hkc c (by rw [hc]; simp))
  refine ⟨⟨c, r ++ (opText a.append ++ ['(']), by rw [hc]; rfl, hcf.1, hcf.2.2.2.2.2.2.2.1⟩,
    ⟨'(', a.key ++ opText a.append, by simp, by decide, by decide⟩, ?_, ?_⟩
  · simp only [List.mem_append, not_or]
    refine ⟨fun hm => (keyChar_facts (hkc _ hm)).2.2.2.2.2.2.2.2.2 rfl, ?_, by decide⟩
    cases a.append <;> decide
  · apply find2_append
    · exact find2_none_of_not_mem' (fun hm => (keyChar_facts (hkc _ hm)).2.2.2.2.2.2.2.2.1 rfl)
    · cases a.append <;> decide
    · exact Or.inr (by cases a.append <;> simp [opText])

/-- One assignment, all layouts. -/
theorem runLines_assign {a : Assign} (h : AssignOk a) (d : Data) (more : List Str) :
    runLines (assignLines a ++ more) ⟨d, true, []⟩ =
      runLines more ⟨store d (upper a.key) a.append (rhsValue a.rhs), true, []⟩ := by
  have hv := h.vals
  have hp := h.plus
  unfold assignLines
  cases hr : a.rhs with
  | one s =>
    rw [hr] at hv hp
    have ht : ValueOk a.append (scalarText s) (scalarValue s) :=
      value_scalar (hv s (by simp [rhsScalars])) (fun happ => hp happ s (by simp [rhsScalars]))
    simp only [List.singleton_append]
    rw [runLines, stepLine_assign h.keyNe h.key ht]
    rfl
  | rows l =>
    rw [hr] at hv hp
    have ht : ValueOk a.append (arrayText (rowElems a.comma l)) (rhsValue (.rows l)) := by
      rw [← rowElems_values a.comma l]
      exact value_array (rowElems_ok hv) (fun happ x hx => (rowElems_ok (hp happ) x hx).2)
    simp only
    split
    · rw [List.singleton_append, runLines, array_statement, stepLine_assign h.keyNe h.key ht]
    · unfold pieces
      rw [List.cons_append, runLines, stepLine_good (first_good h.keyNe h.key)]
      have hex : extend [] (headText a ++ ['(']) = headText a ++ ['('] := by simp [extend]
      have e : headText a = a.key ++ opText a.append := rfl
      have hsc : (headText a ++ ['(']).foldl scanStep (0, none) = (1, none) := by
        rw [List.foldl_append, e, List.foldl_append, scan_key h.key, op_scan]
        simp [scanStep]
      have hc : complete (extend [] (headText a ++ ['('])) = false := by
        unfold complete
        rw [hex, hsc]
        rfl
      rw [hc]
      simp only [Bool.not_false, if_true]
      rw [hex, List.append_assoc, runLines_rows hv d ([[')']] ++ more) (headText a ++ ['(']) (by simp) hsc,
        List.singleton_append, runLines, stepLine_good paren_good]
      have hst : extend (headText a ++ ['('] ++ l.flatMap (fun r => ' ' :: rowText a.comma r)) [')'] =
          a.key ++ (opText a.append ++ arrayText (rowElems a.comma l)) := by
        unfold arrayText
        rw [rowElems_text]
        simp [extend, e]
      rw [hst, complete_statement h.key ht, parseAssignment_ok h.keyNe h.key ht]
      rfl

theorem runLines_assigns {as : List Assign} (h : ∀ a ∈ as, AssignOk a) : ∀ d : Data,
    runLines (as.flatMap assignLines) ⟨d, true, []⟩ =
      some (.ok ⟨as.foldl (fun d a => store d (upper a.key) a.append (rhsValue a.rhs)) d, true, []⟩) := by
  induction as with
  | nil => intro d; rfl
  | cons a as ih =>
    intro d
    rw [List.flatMap_cons, runLines_assign (h a (by simp)), ih (fun b hb => h b (by simp [hb]))]
    rfl

theorem runLines_preface {pre : List Str} (h : ∀ l ∈ pre, PrefaceOk l) (d : Data) (more : List Str) :
    runLines (pre ++ more) ⟨d, false, []⟩ = runLines more ⟨d, false, []⟩ := by
  induction pre with
  | nil => rfl
  | cons l pre ih =>
    rw [List.cons_append, runLines]
    have : stepLine ⟨d, false, []⟩ l = some (.ok ⟨d, false, []⟩) := by
      unfold stepLine
      dsimp only
      rw [not_marker (h l (by simp)).2 (m := "\\begindata".toList) rfl,
        not_marker (h l (by simp)).2 (m := "\\begintext".toList) rfl]
      simp
    rw [this]
    exact ih (fun x hx => h x (by simp [hx]))

theorem assignLines_good {a : Assign} (h : AssignOk a) : ∀ l ∈ assignLines a, LineOk l := by
  have hv := h.vals
  have hp := h.plus
  unfold assignLines
  cases hr : a.rhs with
  | one s =>
    rw [hr] at hv hp
    have ht : ValueOk a.append (scalarText s) (scalarValue s) :=
      value_scalar (hv s (by simp [rhsScalars])) (fun happ => hp happ s (by simp [rhsScalars]))
    intro l hl
    simp only [List.mem_singleton] at hl
    rw [hl]
    exact (head_good h.keyNe h.key ht).lineOk
  | rows l =>
    rw [hr] at hv hp
    have ht : ValueOk a.append (arrayText (rowElems a.comma l)) (rhsValue (.rows l)) := by
      rw [← rowElems_values a.comma l]
      exact value_array (rowElems_ok hv) (fun happ x hx => (rowElems_ok (hp happ) x hx).2)
    simp only
    split
    · intro x hx
      simp only [List.mem_singleton] at hx
      rw [hx, array_statement]
      exact (head_good h.keyNe h.key ht).lineOk
    · intro x hx
      unfold pieces at hx
      simp only [List.mem_cons, List.mem_append, List.mem_map, List.not_mem_nil, or_false] at hx
      rcases hx with rfl | ⟨r, hr', rfl⟩ | rfl
      · exact (first_good h.keyNe h.key).lineOk
      · refine (row_good (fun s hs => hv s ?_)).lineOk
        exact List.mem_flatMap.mpr ⟨r, hr', hs⟩
      · exact paren_good.lineOk

theorem parse_kernel {pre : List Str} (hpre : ∀ l ∈ pre, PrefaceOk l) {as : List Assign}
    (h : ∀ a ∈ as, AssignOk a) : parse (kernelText pre as) =
      some (.ok (as.foldl (fun d a => store d (upper a.key) a.append (rhsValue a.rhs)) [])) := by
  unfold parse kernelText
  rw [lines_unlines]
  · rw [List.append_assoc, runLines_preface hpre, List.singleton_append, runLines]
    have : stepLine ⟨[], false, []⟩ "\\begindata".toList = some (.ok ⟨[], true, []⟩) := by decide +kernel
    rw [this]
    simp only
    rw [runLines_assigns h]
    simp [trim, trimStart, trimEnd]
  · intro l hl
    simp only [List.mem_append, List.mem_singleton, List.mem_flatMap] at hl
    rcases hl with (hl | rfl) | ⟨a, ha, hl⟩
    · exact (hpre l hl).1
    · constructor <;> decide
    · exact assignLines_good (h a ha) l hl

/-! ### The table -/

theorem find?_insert (d : Data) (k : Str) (v : TextValue) : getKey (insertKey d k v) k = some v := by
  unfold getKey insertKey
  rw [List.find?_append]
  have : (d.filter (fun x => x.1 ≠ k)).find? (fun x => x.1 = k) = none := by
    rw [List.find?_eq_none]
    intro x hx
    simpa using (List.mem_filter.mp hx).2
  rw [this]
  simp

theorem find?_insert_ne (d : Data) {k k' : Str} (hk : k' ≠ k) (v : TextValue) :
    getKey (insertKey d k v) k' = getKey d k' := by
  unfold getKey insertKey
  rw [List.find?_append]
  have h1 : (d.filter (fun x => x.1 ≠ k)).find? (fun x => x.1 = k') = d.find? (fun x => x.1 = k') := by
    induction d with
    | nil => rfl
    | cons x d ih =>
      rw [List.filter_cons]
      by_cases hx : x.1 = k
      · have hne : ¬ x.1 = k' := by rw [hx]; exact Ne.symm hk
        simp only [hx, ne_eq, not_true_eq_false, decide_false, Bool.false_eq_true, if_false]
        rw [List.find?_cons]
        simp only [hne, decide_false]
        exact ih
      · simp only [hx, ne_eq, not_false_eq_true, decide_true, if_true, List.find?_cons]
        split
        · rfl
        · exact ih
  rw [h1]
  have : ¬ k = k' := Ne.symm hk
  simp [this]

theorem items_entries (v : TextValue) : items v = entries v := by
  cases v <;> rfl

theorem getKey_store (d : Data) (k : Str) (app : Bool) (v : TextValue) :
    getKey (store d k app v) k =
      if app then some (.array ((getKey d k).elim [] entries ++ entries v)) else some v := by
  unfold store
  cases app with
  | false => simp [find?_insert]
  | true =>
    simp only [Bool.not_true, Bool.false_eq_true, if_false, if_true]
    split
    · rename_i old h
      rw [find?_insert, h, items_entries]
      rfl
    · rename_i old hna h
      rw [find?_insert, h, items_entries]
      cases old with
      | array l => exact absurd rfl (hna l)
      | _ => rfl
    · rename_i h
      rw [find?_insert, h, items_entries]
      rfl

theorem getKey_store_ne (d : Data) {k k' : Str} (hk : k' ≠ k) (app : Bool) (v : TextValue) :
    getKey (store d k app v) k' = getKey d k' := by
  unfold store
  split
  · exact find?_insert_ne d hk v
  · split <;> exact find?_insert_ne d hk _

theorem fold_value (as : List Assign) (k : Str) :
    getKey (as.foldl (fun d a => store d (upper a.key) a.append (rhsValue a.rhs)) []) k = valueOf as k := by
  induction as using List.reverseRecOn with
  | nil => rfl
  | append_singleton as a ih =>
    rw [List.foldl_append, List.foldl_cons, List.foldl_nil]
    unfold valueOf at ih ⊢
    rw [List.filter_append, List.reverse_append]
    by_cases hk : upper a.key = k
    · have : [a].filter (fun a => decide (upper a.key = k)) = [a] := by simp [hk]
      rw [this, List.reverse_singleton, List.singleton_append, finalValue, ← ih, ← hk, getKey_store]
    · have : [a].filter (fun a => decide (upper a.key = k)) = [] := by simp [hk]
      rw [this, getKey_store_ne _ (Ne.symm hk), ih]
      rfl

end Verif.TextKernel
