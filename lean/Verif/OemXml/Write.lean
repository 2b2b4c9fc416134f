import Verif.OemXml.Tokens
import Verif.OemXml.Read
import Verif.Ccsds.Write

/-! # The written document -/

namespace Verif.OemXml.Props
open Verif.Text Verif.OemXml
open _root_.Verif.OemXml.Spec (bare Field SegDoc Doc wrap pairs last number every FieldOk DocOk Passed Answers Special pieces held strip)
open _root_.Verif.Ccsds (jdToIso xmlEscape isoToJd)

/-! ### Plain texts -/

/-- Digits and the marks of numbers and dates. -/
def plain (c : Char) : Bool := c.isDigit || c = '-' || c = '.' || c = 'T' || c = ':'

theorem plain_char {c : Char} (h : plain c = true) : isText c = true ∧ isBlank c = false ∧ c ≠ '\r' := by
  unfold plain at h
  simp only [Bool.or_eq_true, decide_eq_true_eq] at h
  rcases h with (((h | rfl) | rfl) | rfl) | rfl
  · refine ⟨?_, ?_, ?_⟩
    · unfold isText
      simp only [Bool.and_eq_true, bne_iff_ne]
      constructor <;> (rintro rfl; exact absurd h (by decide))
    · unfold isBlank
      simp only [Bool.or_eq_false_iff, decide_eq_false_iff_not]
      refine ⟨⟨⟨?_, ?_⟩, ?_⟩, ?_⟩ <;> (rintro rfl; exact absurd h (by decide))
    · rintro rfl; exact absurd h (by decide)
  all_goals decide

theorem fmtFixed_plain (p : Nat) (q : ℚ) : ∀ c ∈ fmtFixed p q, plain c = true := by
  intro c hc
  unfold fmtFixed at hc
  rcases List.mem_append.mp hc with hc | hc
  · split at hc
    · simp only [List.mem_singleton] at hc; subst hc; decide
    · simp at hc
  · rcases fixedStr_chars _ _ c hc with h | h
    · subst h; decide
    · unfold plain; rw [h]; rfl

theorem iso_plain {jd : ℚ} (h0 : 1721059 + 1 / 2 ≤ jd) (h1 : jd < 700000000000 - 1) : ∀ c ∈ jdToIso jd, plain c = true := by
  obtain ⟨y, m, d, h, i, s, -, -, -, -, -, -, -, ht⟩ := Ccsds.Props.iso_calendar h0 h1
  have hd : ∀ w n, ∀ c ∈ padLeft '0' w (natStr n), plain c = true := by
    intro w n c hc
    have := List.all_eq_true.mp (Ccsds.Props.digits_pad w n).2.1 c hc
    unfold plain; rw [this]; rfl
  have hs : ∀ c ∈ padLeft '0' 9 (fixedStr 6 (roundHalfEven (s * 10 ^ 6))), plain c = true := by
    intro c hc
    unfold padLeft at hc
    rcases List.mem_append.mp hc with h | h
    · rw [List.eq_of_mem_replicate h]; decide
    · rcases fixedStr_chars _ _ c h with h | h
      · rw [h]; decide
      · unfold plain; rw [h]; rfl
  rw [ht]
  intro c hc
  simp only [List.mem_append, List.mem_cons] at hc
  rcases hc with hc | rfl | hc | rfl | hc | rfl | hc | rfl | hc | rfl | hc
  · exact hd _ _ c hc
  · decide
  · exact hd _ _ c hc
  · decide
  · exact hd _ _ c hc
  · decide
  · exact hd _ _ c hc
  · decide
  · exact hd _ _ c hc
  · decide
  · exact hs c hc

theorem trimBlank_tight {v : Str} (h : ∀ c ∈ v, isBlank c = false) : trimBlank v = v := by
  have key : ∀ u : Str, (∀ c ∈ u, isBlank c = false) → u.dropWhile isBlank = u := by
    intro u hu
    cases u with
    | nil => rfl
    | cons c u => exact List.dropWhile_cons_of_neg (by rw [hu c List.mem_cons_self]; decide)
  unfold trimBlank
  rw [key v h, key v.reverse (fun c hc => h c (List.mem_reverse.1 hc)), List.reverse_reverse]

theorem toks_plain {st : List Str} {v : Str} (hv : ∀ c ∈ v, plain c = true) (hne : v ≠ []) (r : Str) :
    toks st (v ++ '<' :: r) = [.text v] ++ toks st ('<' :: r) := by
  rw [toks_text (fun c hc => (plain_char (hv c hc)).1) (by intro c hc; obtain rfl : '<' = c := by simpa using hc
                                                           decide),
    trimBlank_tight (fun c hc => (plain_char (hv c hc)).2.1), if_neg hne]

/-! ### Escaped names -/

theorem dropBoth_comm (p : Char → Bool) (s : Str) :
    ((s.dropWhile p).reverse.dropWhile p).reverse = ((s.reverse.dropWhile p).reverse).dropWhile p := by
  by_cases h : ∀ c ∈ s, p c = true
  · have h1 : s.dropWhile p = [] := List.dropWhile_eq_nil_iff.2 h
    have h2 : s.reverse.dropWhile p = [] := List.dropWhile_eq_nil_iff.2 (fun c hc => h c (List.mem_reverse.1 hc))
    rw [h1, h2]
    rfl
  · push Not at h
    obtain ⟨c, hc, hpc⟩ := h
    -- s = a ++ c' :: m ++ d :: b style decomposition through first and last kept characters
    induction s with
    | nil => cases hc
    | cons a t ih =>
      by_cases ha : p a = true
      · have hct : c ∈ t := by
          rcases List.mem_cons.1 hc with rfl | h
          · exact absurd ha hpc
          · exact h
        rw [List.dropWhile_cons_of_pos ha, ih hct, List.reverse_cons, List.dropWhile_append, if_neg]
        · rw [List.reverse_append, List.reverse_singleton, List.singleton_append, List.dropWhile_cons_of_pos ha]
        · intro he
          have := List.isEmpty_iff.1 he
          rw [List.dropWhile_eq_nil_iff] at this
          exact hpc (this c (List.mem_reverse.2 hct))
      · rw [List.dropWhile_cons_of_neg ha, List.reverse_cons, List.dropWhile_append]
        split
        · rw [List.dropWhile_cons_of_neg ha]
          simp [ha]
        · rw [List.reverse_append, List.reverse_singleton, List.singleton_append, List.dropWhile_cons_of_neg ha]

theorem strip_eq (s : Str) : trimBlank s = strip s := by
  have hb : isBlank = fun c => decide (c ∈ [' ', '\t', '\r', '\n']) := by
    funext c
    simp [isBlank, Bool.or_assoc, Bool.decide_or]
  unfold trimBlank strip
  rw [hb, dropBoth_comm]

theorem escape_cons (c : Char) (t : Str) : xmlEscape (c :: t) = Ccsds.Props.escapeChar c ++ xmlEscape t := by
  rw [Ccsds.Props.escape_one_pass, Ccsds.Props.escape_one_pass, List.flatMap_cons]

/-- An escaped name in the text: the reader sees its pieces, with references between. -/
theorem toks_escaped (st : List Str) : ∀ (name cur : Str), (∀ c ∈ cur, isText c = true) →
    ∃ X, (∀ r, toks st (cur ++ (xmlEscape name ++ '<' :: r)) = X ++ toks st ('<' :: r)) ∧
      X.filter (fun e => ¬ Passed e) = (((pieces cur name).map strip).filter (fun v => v ≠ [])).map Ev.text := by
  have hlt : ∀ (r : Str) c, ('<' :: r).head? = some c → isText c = false := by
    intro r c hc; obtain rfl : '<' = c := by simpa using hc
    decide
  have htext : ∀ v, ((if trimBlank v = [] then ([] : List Ev) else [.text (trimBlank v)]).filter (fun e => ¬ Passed e)) =
      (([v].map strip).filter (fun v => v ≠ [])).map Ev.text := by
    intro v
    rw [strip_eq]
    by_cases h : strip v = []
    · rw [if_pos h]; simp [h]
    · rw [if_neg h]
      simp [h, Passed]
  intro name
  induction name with
  | nil =>
    intro cur hcur
    refine ⟨_, fun r => toks_text hcur (hlt r), ?_⟩
    rw [htext]
    rfl
  | cons c t ih =>
    intro cur hcur
    rw [escape_cons, pieces]
    have special : ∀ ent : Str, ';' ∉ ent → Ccsds.Props.escapeChar c = '&' :: (ent ++ [';']) → Special c →
        ∃ X, (∀ r, toks st (cur ++ ((Ccsds.Props.escapeChar c ++ xmlEscape t) ++ '<' :: r)) = X ++ toks st ('<' :: r)) ∧
          X.filter (fun e => ¬ Passed e) = (((cur :: pieces [] t).map strip).filter (fun v => v ≠ [])).map Ev.text := by
      intro ent hent he hsp
      obtain ⟨X, hX, hX'⟩ := ih [] (by simp)
      refine ⟨(if trimBlank cur = [] then [] else [.text (trimBlank cur)]) ++ .ref ent :: X, ?_, ?_⟩
      · intro r
        rw [he]
        have : ('&' :: (ent ++ [';']) ++ xmlEscape t) ++ '<' :: r = '&' :: (ent ++ ';' :: (xmlEscape t ++ '<' :: r)) := by simp
        rw [this, toks_text hcur (by intro c hc; obtain rfl : '&' = c := by simpa using hc
                                     decide), toks_ref hent]
        have hXr := hX r
        rw [List.nil_append] at hXr
        rw [hXr]
        simp
      · rw [List.filter_append, htext, List.filter_cons_of_neg (by simp [Passed]), hX', List.map_cons, ← List.map_append]
        congr 1
        rw [← List.filter_append]
        rfl
    by_cases hs : Special c
    · rw [if_pos hs]
      rcases hs with h | h | h | h
      · exact special "amp".toList (by decide) (by subst h; decide) (by subst h; decide)
      · exact special "lt".toList (by decide) (by subst h; decide) (by subst h; decide)
      · exact special "gt".toList (by decide) (by subst h; decide) (by subst h; decide)
      · exact special "quot".toList (by decide) (by subst h; decide) (by subst h; decide)
    · rw [if_neg hs]
      have h4 : c ≠ '&' ∧ c ≠ '<' ∧ c ≠ '>' ∧ c ≠ '"' := by
        unfold Special at hs
        push Not at hs
        exact hs
      have he : Ccsds.Props.escapeChar c = [c] := by
        unfold Ccsds.Props.escapeChar
        rw [if_neg h4.1, if_neg h4.2.1, if_neg h4.2.2.1, if_neg h4.2.2.2]
      obtain ⟨X, hX, hX'⟩ := ih (cur ++ [c]) (by
        intro d hd
        rcases List.mem_append.1 hd with h | h
        · exact hcur d h
        · obtain rfl := List.mem_singleton.1 h
          simp [isText, h4.1, h4.2.1])
      refine ⟨X, fun r => ?_, hX'⟩
      rw [← hX, he]
      simp

/-- A whole element. -/
theorem toks_element {st : List Str} {k : Nat} {name attrs : String} {v : Str} {as : List (Str × Str)} {body : List Ev} (r : Str)
    (hm : ∀ r, markup (name.toList ++ attrs.toList ++ '>' :: r) = some (.opening name.toList as, r))
    (hc : ∀ r, markup ('/' :: (name.toList ++ '>' :: r)) = some (.closing name.toList, r))
    (hb : ∀ r, toks (name.toList :: st) (v ++ '<' :: r) = body ++ toks (name.toList :: st) ('<' :: r)) :
    toks st (element k name attrs v ++ '\n' :: r) = .start name.toList as :: (body ++ .stop name.toList :: toks st r) := by
  unfold element
  rw [List.append_assoc, toks_blank (fun c hc => by rw [List.eq_of_mem_replicate hc]; decide)]
  have e1 : '<' :: (name.toList ++ attrs.toList ++ '>' :: (v ++ '<' :: '/' :: (name.toList ++ ['>']))) ++ '\n' :: r =
      '<' :: (name.toList ++ attrs.toList ++ '>' :: (v ++ '<' :: ('/' :: (name.toList ++ '>' :: '\n' :: r)))) := by simp
  rw [e1, toks_open (hm _), hb, toks_close (hc _)]
  have : toks st ('\n' :: r) = toks st r := toks_blank (w := ['\n']) (by decide) r
  rw [this]

theorem toks_startLine {st : List Str} {k : Nat} {name line : Str} (r : Str) (hl : line = List.replicate k ' ' ++ '<' :: (name ++ ['>']))
    (hm : ∀ r, markup (name ++ '>' :: r) = some (.opening name [], r)) :
    toks st (line ++ '\n' :: r) = .start name [] :: toks (name :: st) r := by
  subst hl
  rw [List.append_assoc, toks_blank (fun c hc => by rw [List.eq_of_mem_replicate hc]; decide)]
  have e1 : '<' :: (name ++ ['>']) ++ '\n' :: r = '<' :: (name ++ '>' :: '\n' :: r) := by simp
  rw [e1, toks_open (hm _)]
  have : toks (name :: st) ('\n' :: r) = toks (name :: st) r := toks_blank (w := ['\n']) (by decide) r
  rw [this]

theorem toks_stopLine {st : List Str} {k : Nat} {name line : Str} (r : Str) (hl : line = List.replicate k ' ' ++ '<' :: '/' :: (name ++ ['>']))
    (hc : ∀ r, markup ('/' :: (name ++ '>' :: r)) = some (.closing name, r)) :
    toks (name :: st) (line ++ '\n' :: r) = .stop name :: toks st r := by
  subst hl
  rw [List.append_assoc, toks_blank (fun c hc => by rw [List.eq_of_mem_replicate hc]; decide)]
  have e1 : '<' :: '/' :: (name ++ ['>']) ++ '\n' :: r = '<' :: ('/' :: (name ++ '>' :: '\n' :: r)) := by simp
  rw [e1, toks_close (hc _)]
  have : toks st ('\n' :: r) = toks st r := toks_blank (w := ['\n']) (by decide) r
  rw [this]

/-- The fields of a written vector. -/
def vecFields (s : Ccsds.State) : List Field :=
  [⟨"EPOCH".toList, [], [jdToIso s.epoch]⟩,
   ⟨"X".toList, [("units".toList, "km".toList)], [fmtFixed 6 s.x]⟩,
   ⟨"Y".toList, [("units".toList, "km".toList)], [fmtFixed 6 s.y]⟩,
   ⟨"Z".toList, [("units".toList, "km".toList)], [fmtFixed 6 s.z]⟩,
   ⟨"X_DOT".toList, [("units".toList, "km/s".toList)], [fmtFixed 9 s.vx]⟩,
   ⟨"Y_DOT".toList, [("units".toList, "km/s".toList)], [fmtFixed 9 s.vy]⟩,
   ⟨"Z_DOT".toList, [("units".toList, "km/s".toList)], [fmtFixed 9 s.vz]⟩]

/-- Epochs the calendar covers. -/
def Covered (s : Ccsds.State) : Prop := 1721059 + 1 / 2 ≤ s.epoch ∧ s.epoch < 700000000000 - 1

theorem iso_ne {s : Ccsds.State} (h : Covered s) : jdToIso s.epoch ≠ [] := (Ccsds.Props.iso_chars h.1 h.2).1

theorem toks_vector {st : List Str} {s : Ccsds.State} (h : Covered s) (r : Str) :
    toks st (unlines (vectorLines s) ++ r) = wrap "stateVector".toList ((vecFields s).flatMap Field.events) ++ toks st r := by
  have hi := iso_plain h.1 h.2
  have hn := iso_ne h
  simp only [vectorLines, unlines_cons, show unlines [] = [] from rfl]
  have e : ∀ (a b : Str), (a ++ '\n' :: b) ++ r = a ++ '\n' :: (b ++ r) := fun a b => by simp
  simp only [e, List.nil_append]
  rw [toks_startLine (k := 8) (name := "stateVector".toList) _ (by decide) (fun _ => rfl)]
  rw [toks_element (as := []) _ (fun _ => rfl) (fun _ => rfl) (fun r => toks_plain hi hn r)]
  rw [toks_element (as := [("units".toList, "km".toList)]) _ (fun _ => rfl) (fun _ => rfl) (fun r => toks_plain (fmtFixed_plain 6 s.x) (Ccsds.Props.fmtFixed_ne _ _) r)]
  rw [toks_element (as := [("units".toList, "km".toList)]) _ (fun _ => rfl) (fun _ => rfl) (fun r => toks_plain (fmtFixed_plain 6 s.y) (Ccsds.Props.fmtFixed_ne _ _) r)]
  rw [toks_element (as := [("units".toList, "km".toList)]) _ (fun _ => rfl) (fun _ => rfl) (fun r => toks_plain (fmtFixed_plain 6 s.z) (Ccsds.Props.fmtFixed_ne _ _) r)]
  rw [toks_element (as := [("units".toList, "km/s".toList)]) _ (fun _ => rfl) (fun _ => rfl) (fun r => toks_plain (fmtFixed_plain 9 s.vx) (Ccsds.Props.fmtFixed_ne _ _) r)]
  rw [toks_element (as := [("units".toList, "km/s".toList)]) _ (fun _ => rfl) (fun _ => rfl) (fun r => toks_plain (fmtFixed_plain 9 s.vy) (Ccsds.Props.fmtFixed_ne _ _) r)]
  rw [toks_element (as := [("units".toList, "km/s".toList)]) _ (fun _ => rfl) (fun _ => rfl) (fun r => toks_plain (fmtFixed_plain 9 s.vz) (Ccsds.Props.fmtFixed_ne _ _) r)]
  rw [toks_stopLine (k := 8) (name := "stateVector".toList) _ (by decide) (fun _ => rfl)]
  rfl

theorem unlines_append (a b : List Str) : unlines (a ++ b) = unlines a ++ unlines b := by simp [unlines]

theorem toks_vectors {st : List Str} (r : Str) : ∀ states : List Ccsds.State, (∀ s ∈ states, Covered s) →
    toks st (unlines (states.flatMap vectorLines) ++ r) =
      states.flatMap (fun s => wrap "stateVector".toList ((vecFields s).flatMap Field.events)) ++ toks st r := by
  intro states
  induction states with
  | nil => intro _; rfl
  | cons s states ih =>
    intro h
    rw [List.flatMap_cons, unlines_append, List.append_assoc, toks_vector (h s List.mem_cons_self),
      ih (fun s' h' => h s' (List.mem_cons_of_mem _ h')), List.flatMap_cons, List.append_assoc]

def infoFields (m : Ccsds.Meta) (start stop : ℚ) : List Field :=
  [⟨"OBJECT_NAME".toList, [], held m.objectName⟩, ⟨"OBJECT_ID".toList, [], held m.objectId⟩, ⟨"CENTER_NAME".toList, [], held m.centerName⟩,
   ⟨"REF_FRAME".toList, [], held m.refFrame⟩, ⟨"TIME_SYSTEM".toList, [], held m.timeSystem⟩,
   ⟨"START_TIME".toList, [], [jdToIso start]⟩, ⟨"STOP_TIME".toList, [], [jdToIso stop]⟩]

/-- What the writer says. -/
def written (m : Ccsds.Meta) (start stop : ℚ) (states : List Ccsds.State) : Doc :=
  ⟨[], [("id".toList, "CCSDS_OEM_VERS".toList), ("version".toList, "3.0".toList)],
    [⟨"CREATION_DATE".toList, [], ["2026-01-01T00:00:00".toList]⟩, ⟨"ORIGINATOR".toList, [], ["SIDERUST-POD".toList]⟩],
    [⟨infoFields m start stop, states.map vecFields⟩]⟩

end Verif.OemXml.Props
