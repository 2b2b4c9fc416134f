import Verif.Ccsds.Model

/-
Property C51: XML escaping.
-/
namespace Verif.Ccsds.Props
open Verif.Text Verif.Ccsds

/-- The four entities of the specification (XML 1.0, section 4.6), and the characters they stand for. -/
def entities : List (Str × Char) := [("amp;".toList, '&'), ("lt;".toList, '<'), ("gt;".toList, '>'), ("quot;".toList, '"')]

/-- Reading XML character data that contains only these entities; `none` for a stray ampersand. -/
def unescape : Nat → Str → Option Str
  | 0, _ => none
  | _ + 1, [] => some []
  | n + 1, c :: t =>
    if c = '&' then
      match entities.findSome? (fun e => (stripPrefix e.1 t).map (fun r => (e.2, r))) with
      | some (x, r) => (unescape n r).map (fun u => x :: u)
      | none => none
    else (unescape n t).map (fun u => c :: u)

/-- One pass. -/
def escapeChar (c : Char) : Str :=
  if c = '&' then "&amp;".toList else if c = '<' then "&lt;".toList else if c = '>' then "&gt;".toList
  else if c = '"' then "&quot;".toList else [c]

theorem escape_one_pass (s : Str) : xmlEscape s = s.flatMap escapeChar := by
  unfold xmlEscape replaceChar
  simp only [List.flatMap_assoc]
  congr 1
  funext c
  unfold escapeChar
  by_cases h1 : c = '&'
  · subst h1; decide
  · by_cases h2 : c = '<'
    · subst h2; decide
    · by_cases h3 : c = '>'
      · subst h3; decide
      · by_cases h4 : c = '"'
        · subst h4; decide
        · simp [h1, h2, h3, h4]

/-- The escaped text contains no markup character. -/
theorem escape_no_markup (s : Str) : '<' ∉ xmlEscape s ∧ '>' ∉ xmlEscape s ∧ '"' ∉ xmlEscape s := by
  rw [escape_one_pass]
  have key : ∀ c x, x ∈ escapeChar c → x ≠ '<' ∧ x ≠ '>' ∧ x ≠ '"' := by
    intro c x hx
    unfold escapeChar at hx
    split_ifs at hx with h1 h2 h3 h4
    · have : x ∈ (['&', 'a', 'm', 'p', ';'] : Str) := hx
      revert this x; decide
    · have : x ∈ (['&', 'l', 't', ';'] : Str) := hx
      revert this x; decide
    · have : x ∈ (['&', 'g', 't', ';'] : Str) := hx
      revert this x; decide
    · have : x ∈ (['&', 'q', 'u', 'o', 't', ';'] : Str) := hx
      revert this x; decide
    · rw [List.mem_singleton] at hx
      subst hx
      exact ⟨h2, h3, h4⟩
  refine ⟨?_, ?_, ?_⟩ <;> intro hm <;> obtain ⟨c, _, hc⟩ := List.mem_flatMap.mp hm
  · exact (key c _ hc).1 rfl
  · exact (key c _ hc).2.1 rfl
  · exact (key c _ hc).2.2 rfl

/-- Reading back gives the text, so every ampersand in the escaped text begins an entity. -/
theorem escape_round_trip (s : Str) : ∀ n, (xmlEscape s).length < n → unescape n (xmlEscape s) = some s := by
  rw [escape_one_pass]
  induction s with
  | nil =>
    intro n hn
    obtain ⟨m, rfl⟩ : ∃ m, n = m + 1 := ⟨n - 1, by simp at hn; omega⟩
    rfl
  | cons c t ih =>
    intro n hn
    rw [List.flatMap_cons, List.length_append] at hn
    rw [List.flatMap_cons]
    obtain ⟨m, rfl⟩ : ∃ m, n = m + 1 := ⟨n - 1, by omega⟩
    generalize t.flatMap escapeChar = u at ih hn ⊢
    have step : ∀ (e : Str) (x : Char), entities.findSome? (fun en => (stripPrefix en.1 (e ++ u)).map (fun r => (en.2, r)))
          = some (x, u) → u.length < m → unescape (m + 1) ('&' :: (e ++ u)) = some (x :: t) := by
      intro e x he hlen
      rw [unescape, if_pos rfl, he]
      simp only [ih m hlen, Option.map_some]
    unfold escapeChar at hn ⊢
    split_ifs at hn ⊢ with h1 h2 h3 h4
    · subst h1
      exact step "amp;".toList '&' rfl (by simp at hn; omega)
    · subst h2
      exact step "lt;".toList '<' rfl (by simp at hn; omega)
    · subst h3
      exact step "gt;".toList '>' rfl (by simp at hn; omega)
    · subst h4
      exact step "quot;".toList '"' rfl (by simp at hn; omega)
    · rw [List.singleton_append, unescape, if_neg h1]
      have : u.length < m := by
        simp only [List.length_singleton] at hn
        omega
      rw [ih m this]
      rfl

/-- A text that already looks escaped. -/
example : xmlEscape "a&lt;b<\"c\">".toList = "a&amp;lt;b&lt;&quot;c&quot;&gt;".toList := by decide

end Verif.Ccsds.Props
