import Verif.OemXml.Spec
import Mathlib.Data.List.TakeWhile

/-! # The events of the written text -/

namespace Verif.OemXml.Props
open Verif.Text Verif.OemXml

theorem find1_length {c : Char} {s a r : Str} (h : find1 c s = some (a, r)) : r.length < s.length := by
  induction s generalizing a with
  | nil => cases h
  | cons x xs ih =>
    rw [find1] at h
    split at h
    · have : xs = r := by
        simp only [Option.some.injEq, Prod.mk.injEq] at h
        exact h.2
      subst this
      simp
    · cases h' : find1 c xs with
      | none => rw [h'] at h; cases h
      | some p =>
        rw [h'] at h
        simp only [Option.map_some, Option.some.injEq, Prod.mk.injEq] at h
        have := ih (a := p.1) (by rw [h', ← h.2])
        simp only [List.length_cons]
        omega

theorem stripPrefix_length {p s r : Str} (h : stripPrefix p s = some r) : r.length ≤ s.length := by
  induction p generalizing s with
  | nil => cases s <;> (simp only [stripPrefix, Option.some.injEq] at h; subst h; simp)
  | cons a p ih =>
    cases s with
    | nil => cases h
    | cons c s =>
      rw [stripPrefix] at h
      split at h
      · have := ih h
        simp only [List.length_cons]
        omega
      · cases h

theorem after_length {p s r : Str} (h : after p s = some r) : r.length ≤ s.length := by
  induction s with
  | nil => cases h
  | cons c t ih =>
    rw [after] at h
    split at h
    · rename_i r' h'
      have := stripPrefix_length h'
      simp only [Option.some.injEq] at h
      subst h
      exact this
    · have := ih h
      simp only [List.length_cons]
      omega

theorem markup_length {s r : Str} {t : Tag} (h : markup s = some (t, r)) : r.length ≤ s.length := by
  unfold markup at h
  split at h
  · rename_i r'
    obtain ⟨x, hx, he⟩ := Option.map_eq_some_iff.1 h
    have := after_length hx
    simp only [Prod.mk.injEq] at he
    rw [← he.2]
    simp only [List.length_cons]
    omega
  · rename_i r'
    split at h
    · obtain ⟨x, hx, he⟩ := Option.map_eq_some_iff.1 h
      have := after_length hx
      simp only [Prod.mk.injEq] at he
      rw [← he.2]
      simp only [List.length_cons, List.length_drop] at this ⊢
      omega
    · split at h
      · obtain ⟨x, hx, he⟩ := Option.map_eq_some_iff.1 h
        have := after_length hx
        simp only [Prod.mk.injEq] at he
        rw [← he.2]
        simp only [List.length_cons]
        omega
      · obtain ⟨x, hx, he⟩ := Option.map_eq_some_iff.1 h
        have := after_length hx
        simp only [Prod.mk.injEq] at he
        rw [← he.2]
        simp only [List.length_cons]
        omega
  · obtain ⟨x, hx, he⟩ := Option.map_eq_some_iff.1 h
    have := find1_length (a := x.1) (r := x.2) hx
    simp only [Prod.mk.injEq] at he
    rw [← he.2]
    simp only [List.length_cons]
    omega
  · obtain ⟨x, hx, he⟩ := Option.map_eq_some_iff.1 h
    have := find1_length (a := x.1) (r := x.2) hx
    simp only [Prod.mk.injEq] at he
    rw [← he.2]
    omega

theorem drop_length {c : Char} {t : Str} (h1 : c ≠ '<') (h2 : c ≠ '&') : ((c :: t).dropWhile isText).length ≤ t.length := by
  rw [List.dropWhile_cons_of_pos (by simp [isText, h1, h2])]
  exact (List.dropWhile_sublist _).length_le

/-- Enough fuel is enough. -/
theorem tokens_fuel : ∀ (n m : Nat) (st : List Str) (s : Str), s.length < n → s.length < m → tokens n st s = tokens m st s := by
  intro n
  induction n with
  | zero => intro m st s h; omega
  | succ n ih =>
    intro m st s h1 h2
    obtain ⟨m, rfl⟩ : ∃ k, m = k + 1 := ⟨m - 1, by omega⟩
    cases s with
    | nil => rfl
    | cons c t =>
      simp only [List.length_cons] at h1 h2
      rw [tokens, tokens]
      split
      · cases hm : markup t with
        | none => rfl
        | some p =>
          obtain ⟨tag, r⟩ := p
          have hl := markup_length hm
          cases tag with
          | opening name attrs => exact congrArg _ (ih m _ r (by omega) (by omega))
          | closing name =>
            cases st with
            | nil => rfl
            | cons top st =>
              simp only
              rw [ih m st r (by omega) (by omega)]
          | single => exact congrArg _ (ih m _ r (by omega) (by omega))
      · split
        · cases hm : find1 ';' t with
          | none => rfl
          | some p =>
            obtain ⟨a, r⟩ := p
            have hl := find1_length hm
            exact congrArg _ (ih m _ r (by omega) (by omega))
        · rename_i h3 h4
          have hl := drop_length (t := t) h3 h4
          simp only
          rw [ih m st _ (by omega) (by omega)]

/-- The events of a text. -/
def toks (st : List Str) (s : Str) : List Ev := tokens (s.length + 1) st s

theorem toks_eq {n : Nat} {st : List Str} {s : Str} (h : s.length < n) : tokens n st s = toks st s :=
  tokens_fuel _ _ _ _ h (by omega)

theorem toks_nil (st : List Str) : toks st [] = [] := rfl

theorem toks_open {st : List Str} {t r name : Str} {attrs : List (Str × Str)} (h : markup t = some (.opening name attrs, r)) :
    toks st ('<' :: t) = .start name attrs :: toks (name :: st) r := by
  have hl := markup_length h
  unfold toks
  rw [tokens, if_pos rfl, h]
  simp only
  rw [toks_eq (by simp only [List.length_cons]; omega)]
  rfl

theorem toks_close {st : List Str} {t r name : Str} (h : markup t = some (.closing name, r)) :
    toks (name :: st) ('<' :: t) = .stop name :: toks st r := by
  have hl := markup_length h
  unfold toks
  rw [tokens, if_pos rfl, h]
  simp only [if_true]
  rw [toks_eq (by simp only [List.length_cons]; omega)]
  rfl

theorem toks_single {st : List Str} {t r : Str} (h : markup t = some (.single, r)) :
    toks st ('<' :: t) = .other :: toks st r := by
  have hl := markup_length h
  unfold toks
  rw [tokens, if_pos rfl, h]
  simp only
  rw [toks_eq (by simp only [List.length_cons]; omega)]
  rfl

theorem toks_ref {st : List Str} {name r : Str} (h : ';' ∉ name) :
    toks st ('&' :: (name ++ ';' :: r)) = .ref name :: toks st r := by
  have hf := find1_append h r
  unfold toks
  rw [tokens, if_neg (by decide), if_pos rfl, hf]
  simp only
  rw [toks_eq (by simp only [List.length_cons, List.length_append]; omega)]
  rfl

theorem toks_run {st : List Str} {c : Char} {t : Str} (h1 : c ≠ '<') (h2 : c ≠ '&') :
    toks st (c :: t) = (if trimBlank ((c :: t).takeWhile isText) = [] then [] else [.text (trimBlank ((c :: t).takeWhile isText))]) ++
      toks st ((c :: t).dropWhile isText) := by
  have hl := drop_length (t := t) h1 h2
  unfold toks
  rw [tokens, if_neg h1, if_neg h2]
  simp only
  rw [toks_eq (by simp only [List.length_cons]; omega)]
  split <;> rfl

/-- A run of text up to the next markup, reference or end. -/
theorem toks_text {st : List Str} {v r : Str} (hv : ∀ c ∈ v, isText c = true) (hr : ∀ c, r.head? = some c → isText c = false) :
    toks st (v ++ r) = (if trimBlank v = [] then [] else [.text (trimBlank v)]) ++ toks st r := by
  cases v with
  | nil => simp [trimBlank]
  | cons c v =>
    have hc := hv c List.mem_cons_self
    have h1 : c ≠ '<' := by rintro rfl; exact absurd hc (by decide)
    have h2 : c ≠ '&' := by rintro rfl; exact absurd hc (by decide)
    have ht : (c :: v ++ r).takeWhile isText = c :: v := by
      rw [List.takeWhile_append_of_pos hv]
      cases r with
      | nil => simp
      | cons d r => rw [List.takeWhile_cons_of_neg (by rw [hr d rfl]; decide), List.append_nil]
    have hd : (c :: v ++ r).dropWhile isText = r := by
      rw [List.dropWhile_append_of_pos hv]
      cases r with
      | nil => simp
      | cons d r => rw [List.dropWhile_cons_of_neg (by rw [hr d rfl]; decide)]
    rw [List.cons_append] at ht hd ⊢
    rw [toks_run h1 h2, ht, hd]

theorem trimBlank_blank {w : Str} (hw : ∀ c ∈ w, isBlank c = true) : trimBlank w = [] := by
  have : w.dropWhile isBlank = [] := List.dropWhile_eq_nil_iff.2 hw
  unfold trimBlank
  rw [this]
  rfl

theorem trimBlank_append {w v : Str} (hw : ∀ c ∈ w, isBlank c = true) : trimBlank (w ++ v) = trimBlank v := by
  unfold trimBlank
  rw [List.dropWhile_append_of_pos hw]

theorem blank_text {c : Char} (h : isBlank c = true) : isText c = true := by
  unfold isBlank at h
  simp only [Bool.or_eq_true, decide_eq_true_eq] at h
  rcases h with ((rfl | rfl) | rfl) | rfl <;> decide

/-- White space is passed over, whatever follows. -/
theorem toks_blank {st : List Str} {w : Str} (hw : ∀ c ∈ w, isBlank c = true) (r : Str) : toks st (w ++ r) = toks st r := by
  have hsplit : r = r.takeWhile isText ++ r.dropWhile isText := List.takeWhile_append_dropWhile.symm
  have hv : ∀ c ∈ r.takeWhile isText, isText c = true := fun c hc => List.mem_takeWhile_imp hc
  have hr : ∀ c, (r.dropWhile isText).head? = some c → isText c = false := by
    intro c hc
    have := List.head?_dropWhile_not isText r
    rw [hc] at this
    simpa using this
  have a1 := toks_text (st := st) hv hr
  have a2 := toks_text (st := st) (v := w ++ r.takeWhile isText) (r := r.dropWhile isText) (fun c hc => by
    rcases List.mem_append.1 hc with h | h
    · exact blank_text (hw c h)
    · exact hv c h) hr
  rw [List.append_assoc, ← hsplit, trimBlank_append hw] at a2
  rw [← hsplit] at a1
  rw [a2, a1]

end Verif.OemXml.Props
