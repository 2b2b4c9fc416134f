import Verif.OemXml.Write

/-! # Orbit ephemeris messages in XML: what is written, what is read -/

namespace Verif.OemXml.Props
open Verif.Text Verif.OemXml
open _root_.Verif.OemXml.Spec (bare Field SegDoc Doc wrap pairs last number every FieldOk DocOk Passed Answers Special pieces held strip)
open _root_.Verif.Ccsds (jdToIso xmlEscape isoToJd)

theorem toks_held (st : List Str) (name : Str) : ∃ X, (∀ r, toks st (xmlEscape name ++ '<' :: r) = X ++ toks st ('<' :: r)) ∧
    X.filter (fun e => ¬ Passed e) = (held name).map Ev.text := toks_escaped st name [] (by simp)

theorem filter_vectors (states : List Ccsds.State) :
    (states.flatMap (fun s => wrap "stateVector".toList ((vecFields s).flatMap Field.events))).filter (fun e => ¬ Passed e) =
      states.flatMap (fun s => wrap "stateVector".toList ((vecFields s).flatMap Field.events)) := by
  rw [List.filter_eq_self]
  intro e he
  obtain ⟨s, -, hs⟩ := List.mem_flatMap.1 he
  simp only [wrap, vecFields, Field.events, List.flatMap_cons, List.flatMap_nil, List.map_cons, List.map_nil, List.mem_cons, List.mem_append,
    List.not_mem_nil, or_false] at hs
  have : ∀ e : Ev, (∃ n a, e = .start n a) ∨ (∃ n, e = .stop n) ∨ (∃ t, e = .text t) → decide (¬ Passed e) = true := by
    rintro e (⟨n, a, rfl⟩ | ⟨n, rfl⟩ | ⟨t, rfl⟩) <;> simp [Passed]
  apply this
  aesop

/-- The events of what is written are those of the document meant, with references in the names. -/
theorem written_events (m : Ccsds.Meta) (first : Ccsds.State) (rest : List Ccsds.State) (h : ∀ s ∈ first :: rest, Covered s) :
    ∃ text, writeXml m (first :: rest) = .ok text ∧
      (toks [] text).filter (fun e => ¬ Passed e) = (written m first.epoch ((rest.getLast?).getD first).epoch (first :: rest)).events := by
  have hf := h first List.mem_cons_self
  have hl : Covered ((rest.getLast?).getD first) := by
    cases hr : rest.getLast? with
    | none => exact hf
    | some a => exact h a (List.mem_cons_of_mem _ (List.mem_of_getLast? hr))
  refine ⟨_, rfl, ?_⟩
  rw [unlines_append, unlines_append]
  simp only [unlines_cons, show unlines [] = [] from rfl]
  generalize hv : unlines (List.flatMap vectorLines (first :: rest)) = vtext
  have e : ∀ (a b r : Str), (a ++ '\n' :: b) ++ r = a ++ '\n' :: (b ++ r) := fun a b r => by simp
  simp only [e, List.nil_append]
  obtain ⟨X1, hX1, hX1'⟩ := toks_held ["OBJECT_NAME".toList, "metadata".toList, "segment".toList, "body".toList, "oem".toList] m.objectName
  obtain ⟨X2, hX2, hX2'⟩ := toks_held ["OBJECT_ID".toList, "metadata".toList, "segment".toList, "body".toList, "oem".toList] m.objectId
  obtain ⟨X3, hX3, hX3'⟩ := toks_held ["CENTER_NAME".toList, "metadata".toList, "segment".toList, "body".toList, "oem".toList] m.centerName
  obtain ⟨X4, hX4, hX4'⟩ := toks_held ["REF_FRAME".toList, "metadata".toList, "segment".toList, "body".toList, "oem".toList] m.refFrame
  obtain ⟨X5, hX5, hX5'⟩ := toks_held ["TIME_SYSTEM".toList, "metadata".toList, "segment".toList, "body".toList, "oem".toList] m.timeSystem
  have h0 : ∀ r, toks [] ("<?xml version=\"1.0\" encoding=\"UTF-8\"?>".toList ++ '\n' :: r) = .other :: toks [] r := by
    intro r
    have := toks_single (st := []) (t := "?xml version=\"1.0\" encoding=\"UTF-8\"?>".toList ++ '\n' :: r) (r := '\n' :: r) rfl
    exact this.trans (congrArg _ (toks_blank (w := ['\n']) (by decide) r))
  have h1 : ∀ r, toks [] ("<oem id=\"CCSDS_OEM_VERS\" version=\"3.0\">".toList ++ '\n' :: r) =
      .start "oem".toList [("id".toList, "CCSDS_OEM_VERS".toList), ("version".toList, "3.0".toList)] :: toks ["oem".toList] r := by
    intro r
    have := toks_open (st := []) (t := "oem id=\"CCSDS_OEM_VERS\" version=\"3.0\">".toList ++ '\n' :: r) (r := '\n' :: r)
      (name := "oem".toList) (attrs := [("id".toList, "CCSDS_OEM_VERS".toList), ("version".toList, "3.0".toList)]) rfl
    exact this.trans (congrArg _ (toks_blank (w := ['\n']) (by decide) r))
  have horig : ∀ (st : List Str) r, toks st ("SIDERUST-POD".toList ++ '<' :: r) = [.text "SIDERUST-POD".toList] ++ toks st ('<' :: r) := by
    intro st r
    rw [toks_text (v := "SIDERUST-POD".toList) (by decide) (by intro c hc; obtain rfl : '<' = c := by simpa using hc
                                                               decide)]
    rfl
  rw [h0, h1]
  rw [toks_startLine (k := 2) (name := "header".toList) _ (by decide) (fun _ => rfl)]
  rw [toks_element (as := []) _ (fun _ => rfl) (fun _ => rfl) (fun r => toks_plain (v := "2026-01-01T00:00:00".toList) (by decide) (by decide) r)]
  rw [toks_element (as := []) _ (fun _ => rfl) (fun _ => rfl) (fun r => horig _ r)]
  rw [toks_stopLine (k := 2) (name := "header".toList) _ (by decide) (fun _ => rfl)]
  rw [toks_startLine (k := 2) (name := "body".toList) _ (by decide) (fun _ => rfl)]
  rw [toks_startLine (k := 4) (name := "segment".toList) _ (by decide) (fun _ => rfl)]
  rw [toks_startLine (k := 6) (name := "metadata".toList) _ (by decide) (fun _ => rfl)]
  rw [toks_element (as := []) _ (fun _ => rfl) (fun _ => rfl) hX1]
  rw [toks_element (as := []) _ (fun _ => rfl) (fun _ => rfl) hX2]
  rw [toks_element (as := []) _ (fun _ => rfl) (fun _ => rfl) hX3]
  rw [toks_element (as := []) _ (fun _ => rfl) (fun _ => rfl) hX4]
  rw [toks_element (as := []) _ (fun _ => rfl) (fun _ => rfl) hX5]
  rw [toks_element (as := []) _ (fun _ => rfl) (fun _ => rfl) (fun r => toks_plain (iso_plain hf.1 hf.2) (iso_ne hf) r)]
  rw [toks_element (as := []) _ (fun _ => rfl) (fun _ => rfl) (fun r => toks_plain (iso_plain hl.1 hl.2) (iso_ne hl) r)]
  rw [toks_stopLine (k := 6) (name := "metadata".toList) _ (by decide) (fun _ => rfl)]
  rw [toks_startLine (k := 6) (name := "data".toList) _ (by decide) (fun _ => rfl)]
  rw [← hv, toks_vectors _ _ h]
  rw [toks_stopLine (k := 6) (name := "data".toList) _ (by decide) (fun _ => rfl)]
  rw [toks_stopLine (k := 4) (name := "segment".toList) _ (by decide) (fun _ => rfl)]
  rw [toks_stopLine (k := 2) (name := "body".toList) _ (by decide) (fun _ => rfl)]
  rw [toks_stopLine (k := 0) (name := "oem".toList) _ (by decide) (fun _ => rfl)]
  rw [toks_nil]
  have hs : ∀ n a, decide (¬ Passed (Ev.start n a)) = true := fun n a => by simp [Passed]
  have ht : ∀ n, decide (¬ Passed (Ev.stop n)) = true := fun n => by simp [Passed]
  have hx : ∀ n, decide (¬ Passed (Ev.text n)) = true := fun n => by simp [Passed]
  have ho : decide (¬ Passed Ev.other) = false := by simp [Passed]
  have hvv := filter_vectors (first :: rest)
  generalize hg : List.flatMap (fun s => wrap "stateVector".toList ((vecFields s).flatMap Field.events)) (first :: rest) = V at hvv ⊢
  simp only [List.filter_cons, List.filter_append, hs, ht, hx, ho, if_true, List.filter_nil, hvv, hX1', hX2', hX3', hX4', hX5', Bool.false_eq_true, if_false]
  have hV : ((first :: rest).map vecFields).flatMap (fun v => wrap ([] ++ "stateVector".toList) (v.flatMap Field.events)) = V := by
    rw [← hg, List.flatMap_map]
    rfl
  unfold written Doc.events
  rw [show (List.flatMap (SegDoc.events []) [(⟨infoFields m first.epoch ((rest.getLast?).getD first).epoch, (first :: rest).map vecFields⟩ : SegDoc)]) =
    wrap "segment".toList (wrap "metadata".toList ((infoFields m first.epoch ((rest.getLast?).getD first).epoch).flatMap Field.events) ++
      wrap "data".toList (((first :: rest).map vecFields).flatMap (fun v => wrap ([] ++ "stateVector".toList) (v.flatMap Field.events)))) from by
    rw [List.flatMap_cons, List.flatMap_nil, List.append_nil]; rfl, hV]
  simp only [List.flatMap_cons, List.flatMap_nil, infoFields, Field.events, wrap, List.nil_append, List.append_nil, List.cons_append,
    List.append_assoc, List.map_cons, List.map_nil]

/-! ### What comes back -/

theorem last_eq (key : String) (fs : List Field) : last key fs = ((fs.filter (fun f => bare f.name = key.toList)).flatMap Field.runs).getLast? := by
  have : ((pairs fs).filter (fun p => p.1 = key.toList)).map Prod.snd = (fs.filter (fun f => bare f.name = key.toList)).flatMap Field.runs := by
    unfold pairs
    induction fs with
    | nil => rfl
    | cons f fs ih =>
      rw [List.flatMap_cons, List.filter_append, List.map_append, ih]
      by_cases h : bare f.name = key.toList
      · rw [List.filter_cons_of_pos (by simpa using h), List.flatMap_cons]
        congr 1
        rw [List.filter_eq_self.2 (by intro p hp; obtain ⟨v, -, rfl⟩ := List.mem_map.1 hp; simpa using h)]
        simp
      · rw [List.filter_cons_of_neg (by simpa using h)]
        have : (f.runs.map (fun v => (bare f.name, v))).filter (fun p => p.1 = key.toList) = [] := by
          rw [List.filter_eq_nil_iff]
          intro p hp
          obtain ⟨v, -, rfl⟩ := List.mem_map.1 hp
          simpa using h
        rw [this]
        rfl
  unfold last
  rw [← List.getLast?_map, this]

theorem vector_written {s : Ccsds.State} (h : Covered s) : ∃ r, Spec.vector (vecFields s) = some r ∧ Spec.Close s r := by
  obtain ⟨jd, -, he, hjd⟩ := Ccsds.Props.iso_round_trip h.1 h.2
  refine ⟨⟨.num jd, .num (fixedValue 6 s.x), .num (fixedValue 6 s.y), .num (fixedValue 6 s.z), .num (fixedValue 9 s.vx), .num (fixedValue 9 s.vy),
    .num (fixedValue 9 s.vz)⟩, ?_, ⟨jd, rfl, hjd⟩, ⟨_, rfl, fixedValue_close 6 s.x⟩, ⟨_, rfl, fixedValue_close 6 s.y⟩,
    ⟨_, rfl, fixedValue_close 6 s.z⟩, ⟨_, rfl, fixedValue_close 9 s.vx⟩, ⟨_, rfl, fixedValue_close 9 s.vy⟩, ⟨_, rfl, fixedValue_close 9 s.vz⟩⟩
  unfold Spec.vector number
  have l0 : last "EPOCH" (vecFields s) = some (jdToIso s.epoch) := rfl
  have l1 : last "X" (vecFields s) = some (fmtFixed 6 s.x) := rfl
  have l2 : last "Y" (vecFields s) = some (fmtFixed 6 s.y) := rfl
  have l3 : last "Z" (vecFields s) = some (fmtFixed 6 s.z) := rfl
  have l4 : last "X_DOT" (vecFields s) = some (fmtFixed 9 s.vx) := rfl
  have l5 : last "Y_DOT" (vecFields s) = some (fmtFixed 9 s.vy) := rfl
  have l6 : last "Z_DOT" (vecFields s) = some (fmtFixed 9 s.vz) := rfl
  rw [l0, l1, l2, l3, l4, l5, l6]
  simp only [Option.bind_some, he, parseFloat_fmtFixed]

theorem vectors_written : ∀ states : List Ccsds.State, (∀ s ∈ states, Covered s) →
    ∃ rs, every Spec.vector (states.map vecFields) = some rs ∧ List.Forall₂ Spec.Close states rs := by
  intro states
  induction states with
  | nil => intro _; exact ⟨[], rfl, List.Forall₂.nil⟩
  | cons s states ih =>
    intro h
    obtain ⟨r, hr, hc⟩ := vector_written (h s List.mem_cons_self)
    obtain ⟨rs, hrs, hcs⟩ := ih (fun s' h' => h s' (List.mem_cons_of_mem _ h'))
    refine ⟨r :: rs, ?_, List.Forall₂.cons hc hcs⟩
    rw [List.map_cons, every, hr, hrs]
    rfl

theorem strip_subset (s : Str) : ∀ c ∈ strip s, c ∈ s := by
  intro c hc
  unfold strip at hc
  have := (List.dropWhile_sublist _).subset hc
  rw [List.mem_reverse] at this
  exact List.mem_reverse.1 ((List.dropWhile_sublist _).subset this)

theorem pieces_chars : ∀ (name cur : Str), (∀ c ∈ cur, ¬ Special c) → ∀ v ∈ pieces cur name, ∀ c ∈ v, ¬ Special c ∧ (c ∈ cur ∨ c ∈ name) := by
  intro name
  induction name with
  | nil =>
    intro cur hcur v hv c hc
    obtain rfl := List.mem_singleton.1 hv
    exact ⟨hcur c hc, Or.inl hc⟩
  | cons a t ih =>
    intro cur hcur v hv c hc
    rw [pieces] at hv
    split at hv
    · rcases List.mem_cons.1 hv with rfl | hv
      · exact ⟨hcur c hc, Or.inl hc⟩
      · obtain ⟨h1, h2⟩ := ih [] (by simp) v hv c hc
        refine ⟨h1, Or.inr ?_⟩
        rcases h2 with h2 | h2
        · simp at h2
        · exact List.mem_cons_of_mem _ h2
    · rename_i hs
      obtain ⟨h1, h2⟩ := ih (cur ++ [a]) (by
        intro d hd
        rcases List.mem_append.1 hd with h | h
        · exact hcur d h
        · obtain rfl := List.mem_singleton.1 h
          exact hs) v hv c hc
      refine ⟨h1, ?_⟩
      rcases h2 with h2 | h2
      · rcases List.mem_append.1 h2 with h | h
        · exact Or.inl h
        · obtain rfl := List.mem_singleton.1 h
          exact Or.inr List.mem_cons_self
      · exact Or.inr (List.mem_cons_of_mem _ h2)

/-- What is held of a name has its characters, none of them special. -/
theorem held_chars {name v : Str} (hv : v ∈ held name) : ∀ c ∈ v, ¬ Special c ∧ c ∈ name := by
  unfold held at hv
  obtain ⟨hv, -⟩ := List.mem_filter.1 hv
  obtain ⟨p, hp, rfl⟩ := List.mem_map.1 hv
  intro c hc
  obtain ⟨h1, h2⟩ := pieces_chars name [] (by simp) p hp c (strip_subset p c hc)
  refine ⟨h1, ?_⟩
  rcases h2 with h2 | h2
  · simp at h2
  · exact h2

theorem pieces_plain : ∀ (name cur : Str), (∀ c ∈ name, ¬ Special c) → pieces cur name = [cur ++ name] := by
  intro name
  induction name with
  | nil => intro cur _; simp [pieces]
  | cons a t ih =>
    intro cur h
    rw [pieces, if_neg (h a List.mem_cons_self), ih _ (fun c hc => h c (List.mem_cons_of_mem _ hc))]
    simp

/-- **C211** A name comes back as it was exactly when it has no special character and no white space around it. -/
theorem name_kept_iff {name v : Str} (hv : (held name).getLast? = some v) :
    v = name ↔ (∀ c ∈ name, ¬ Special c) ∧ strip name = name := by
  constructor
  · rintro rfl
    have hm := List.mem_of_getLast? hv
    have h1 : ∀ c ∈ v, ¬ Special c := fun c hc => (held_chars hm c hc).1
    refine ⟨h1, ?_⟩
    unfold held at hm
    rw [pieces_plain v [] h1] at hm
    obtain ⟨hm, -⟩ := List.mem_filter.1 hm
    have := List.mem_singleton.1 hm
    exact this.symm
  · rintro ⟨h1, h2⟩
    unfold held at hv
    rw [pieces_plain name [] h1] at hv
    simp only [List.nil_append, List.map_cons, List.map_nil, h2] at hv
    by_cases h0 : name = []
    · subst h0; simp at hv
    · simpa [h0] using hv.symm

/-- A name that is kept. -/
theorem held_plain {name : Str} (h1 : ∀ c ∈ name, ¬ Special c) (h2 : strip name = name) (h0 : name ≠ []) : (held name).getLast? = some name := by
  unfold held
  rw [pieces_plain name [] h1]
  simp [h2, h0]

theorem written_ok {m : Ccsds.Meta} {a b : Ccsds.State} {states : List Ccsds.State} (ha : Covered a) (hb : Covered b) (h : ∀ s ∈ states, Covered s)
    (hm : ∀ n ∈ [m.objectId, m.objectName, m.refFrame, m.timeSystem, m.centerName], '\r' ∉ n) : DocOk (written m a.epoch b.epoch states) := by
  have hplain : ∀ v : Str, (∀ c ∈ v, plain c = true) → '\r' ∉ v := fun v hv hc => (plain_char (hv _ hc)).2.2 rfl
  have hheld : ∀ n : Str, '\r' ∉ n → ∀ v ∈ held n, '\r' ∉ v := fun n hn v hv hc => hn (held_chars hv _ hc).2
  simp only [List.mem_cons, List.not_mem_nil, or_false, forall_eq_or_imp, forall_eq] at hm
  obtain ⟨m1, m2, m3, m4, m5⟩ := hm
  constructor
  · exact Or.inl rfl
  · intro f hf
    simp only [written, List.mem_cons, List.not_mem_nil, or_false] at hf
    rcases hf with rfl | rfl
    · exact ⟨by decide, by decide, by decide, by decide⟩
    · exact ⟨by decide, by decide, by decide, by decide⟩
  · intro g hg f hf
    obtain rfl := List.mem_singleton.1 hg
    simp only [infoFields, List.mem_cons, List.not_mem_nil, or_false] at hf
    rcases hf with rfl | rfl | rfl | rfl | rfl | rfl | rfl
    · exact ⟨by dsimp only; decide, by dsimp only; decide, by dsimp only; decide, hheld _ m2⟩
    · exact ⟨by dsimp only; decide, by dsimp only; decide, by dsimp only; decide, hheld _ m1⟩
    · exact ⟨by dsimp only; decide, by dsimp only; decide, by dsimp only; decide, hheld _ m5⟩
    · exact ⟨by dsimp only; decide, by dsimp only; decide, by dsimp only; decide, hheld _ m3⟩
    · exact ⟨by dsimp only; decide, by dsimp only; decide, by dsimp only; decide, hheld _ m4⟩
    · refine ⟨by dsimp only; decide, by dsimp only; decide, by dsimp only; decide, fun v hv => ?_⟩
      obtain rfl := List.mem_singleton.1 hv
      exact hplain _ (iso_plain ha.1 ha.2)
    · refine ⟨by dsimp only; decide, by dsimp only; decide, by dsimp only; decide, fun v hv => ?_⟩
      obtain rfl := List.mem_singleton.1 hv
      exact hplain _ (iso_plain hb.1 hb.2)
  · intro g hg v hv f hf
    obtain rfl := List.mem_singleton.1 hg
    obtain ⟨s, hs, rfl⟩ := List.mem_map.1 hv
    simp only [vecFields, List.mem_cons, List.not_mem_nil, or_false] at hf
    rcases hf with rfl | rfl | rfl | rfl | rfl | rfl | rfl
    · refine ⟨by dsimp only; decide, by dsimp only; decide, by dsimp only; decide, fun v hv => ?_⟩
      obtain rfl := List.mem_singleton.1 hv
      exact hplain _ (iso_plain (h s hs).1 (h s hs).2)
    all_goals
      refine ⟨by dsimp only; decide, by dsimp only; decide, by dsimp only; decide, fun v hv => ?_⟩
      obtain rfl := List.mem_singleton.1 hv
      exact hplain _ (fmtFixed_plain _ _)

/-- **C211** Writing and reading: one segment with the states written, to the printed precision, and of each name the
last piece held between its special characters; a name of which nothing is held makes the message unreadable. -/
theorem write_read {m : Ccsds.Meta} {states : List Ccsds.State} (hne : states ≠ []) (h : ∀ s ∈ states, Covered s)
    (hm : ∀ n ∈ [m.objectId, m.objectName, m.refFrame, m.timeSystem, m.centerName], '\r' ∉ n) :
    ∃ text rs, writeXml m states = .ok text ∧ List.Forall₂ Spec.Close states rs ∧
      Answers (readXml text)
        ((held m.objectId).getLast?.bind fun a => (held m.objectName).getLast?.bind fun b => (held m.refFrame).getLast?.bind fun c =>
         (held m.timeSystem).getLast?.bind fun d => (held m.centerName).getLast?.bind fun e =>
         some ⟨"3.0".toList, "2026-01-01T00:00:00".toList, "SIDERUST-POD".toList, [⟨⟨a, b, c, d, e⟩, rs⟩]⟩) := by
  obtain ⟨first, rest, rfl⟩ := List.exists_cons_of_ne_nil hne
  obtain ⟨text, ht, he⟩ := written_events m first rest h
  obtain ⟨rs, hrs, hcl⟩ := vectors_written _ h
  refine ⟨text, rs, ht, hcl, ?_⟩
  have hl : Covered ((rest.getLast?).getD first) := by
    cases hr : rest.getLast? with
    | none => exact h first List.mem_cons_self
    | some a => exact h a (List.mem_cons_of_mem _ (List.mem_of_getLast? hr))
  have hr := read_document _ (written_ok (h first List.mem_cons_self) hl h hm) _ he
  have hfile : Spec.file (written m first.epoch ((rest.getLast?).getD first).epoch (first :: rest)) =
      ((held m.objectId).getLast?.bind fun a => (held m.objectName).getLast?.bind fun b => (held m.refFrame).getLast?.bind fun c =>
         (held m.timeSystem).getLast?.bind fun d => (held m.centerName).getLast?.bind fun e =>
         some ⟨"3.0".toList, "2026-01-01T00:00:00".toList, "SIDERUST-POD".toList, [⟨⟨a, b, c, d, e⟩, rs⟩]⟩) := by
    have hinfo : Spec.info (infoFields m first.epoch ((rest.getLast?).getD first).epoch) =
        ((held m.objectId).getLast?.bind fun a => (held m.objectName).getLast?.bind fun b => (held m.refFrame).getLast?.bind fun c =>
         (held m.timeSystem).getLast?.bind fun d => (held m.centerName).getLast?.bind fun e => some ⟨a, b, c, d, e⟩) := by
      unfold Spec.info
      have one : ∀ (key : String) (v : List Str), (∀ fs, fs = infoFields m first.epoch ((rest.getLast?).getD first).epoch →
          (fs.filter (fun f => bare f.name = key.toList)).flatMap Field.runs = v) →
          last key (infoFields m first.epoch ((rest.getLast?).getD first).epoch) = v.getLast? := by
        intro key v hv
        rw [last_eq, hv _ rfl]
      rw [one "OBJECT_ID" (held m.objectId) (by rintro _ rfl; exact List.append_nil _),
        one "OBJECT_NAME" (held m.objectName) (by rintro _ rfl; exact List.append_nil _),
        one "REF_FRAME" (held m.refFrame) (by rintro _ rfl; exact List.append_nil _),
        one "TIME_SYSTEM" (held m.timeSystem) (by rintro _ rfl; exact List.append_nil _),
        one "CENTER_NAME" (held m.centerName) (by rintro _ rfl; exact List.append_nil _)]
    unfold Spec.file written
    simp only [every]
    unfold Spec.segment
    simp only [hrs, hinfo, Option.bind_some]
    cases (held m.objectId).getLast? with
    | none => rfl
    | some a =>
      cases (held m.objectName).getLast? with
      | none => rfl
      | some b =>
        cases (held m.refFrame).getLast? with
        | none => rfl
        | some c =>
          cases (held m.timeSystem).getLast? with
          | none => rfl
          | some d =>
            cases (held m.centerName).getLast? with
            | none => rfl
            | some e => rfl
  rw [hfile] at hr
  exact hr

/-- **C211** Names without special characters and white space around them come back as they were. -/
theorem write_read_plain {m : Ccsds.Meta} {states : List Ccsds.State} (hne : states ≠ []) (h : ∀ s ∈ states, Covered s)
    (hm : ∀ n ∈ [m.objectId, m.objectName, m.refFrame, m.timeSystem, m.centerName], n ≠ [] ∧ strip n = n ∧ '\r' ∉ n ∧ ∀ c ∈ n, ¬ Special c) :
    ∃ text rs, writeXml m states = .ok text ∧ List.Forall₂ Spec.Close states rs ∧
      readXml text = .ok ⟨"3.0".toList, "2026-01-01T00:00:00".toList, "SIDERUST-POD".toList, [⟨m, rs⟩]⟩ := by
  obtain ⟨text, rs, h1, h2, h3⟩ := write_read hne h (fun n hn => (hm n hn).2.2.1)
  refine ⟨text, rs, h1, h2, ?_⟩
  have k : ∀ n ∈ [m.objectId, m.objectName, m.refFrame, m.timeSystem, m.centerName], (held n).getLast? = some n :=
    fun n hn => held_plain (hm n hn).2.2.2 (hm n hn).2.1 (hm n hn).1
  simp only [List.mem_cons, List.not_mem_nil, or_false, forall_eq_or_imp, forall_eq] at k
  obtain ⟨k1, k2, k3, k4, k5⟩ := k
  rw [k1, k2, k3, k4, k5] at h3
  exact h3

/-- No states, no message. -/
theorem write_nothing (m : Ccsds.Meta) : ∃ e, writeXml m [] = .err e := ⟨_, rfl⟩

/-- A message is read only if every vector of every segment is complete and there is a segment. -/
theorem read_complete {d : Doc} (hd : DocOk d) {es : List Ev} (he : es.filter (fun e => ¬ Passed e) = d.events) {f : File} (hf : readEvents es = .ok f) :
    d.segments ≠ [] ∧ f.segments.length = d.segments.length ∧
      (∀ g ∈ d.segments, (∀ key ∈ ["OBJECT_ID", "OBJECT_NAME", "REF_FRAME", "TIME_SYSTEM", "CENTER_NAME"], last key g.info ≠ none) ∧
        ∀ v ∈ g.vectors, ∀ key ∈ ["EPOCH", "X", "Y", "Z", "X_DOT", "Y_DOT", "Z_DOT"], last key v ≠ none) := by
  have ha := read_document d hd es he
  have hl : ∀ {α β : Type} (g : α → Option β) (l : List α) (r : List β), every g l = some r → r.length = l.length ∧ ∀ a ∈ l, g a ≠ none := by
    intro α β g l
    induction l with
    | nil => intro r hr; obtain rfl := Option.some.inj hr; exact ⟨rfl, by simp⟩
    | cons a l ih =>
      intro r hr
      rw [every] at hr
      obtain ⟨b, hb, hr⟩ := Option.bind_eq_some_iff.1 hr
      obtain ⟨bs, hbs, hr⟩ := Option.bind_eq_some_iff.1 hr
      obtain rfl := Option.some.inj hr
      obtain ⟨h1, h2⟩ := ih bs hbs
      refine ⟨by simp [h1], fun x hx => ?_⟩
      rcases List.mem_cons.1 hx with rfl | hx
      · simp [hb]
      · exact h2 x hx
  cases hs : Spec.file d with
  | none =>
    rw [hs] at ha
    obtain ⟨e, he'⟩ := ha
    rw [hf] at he'
    cases he'
  | some f' =>
    rw [hs] at ha
    have hff : f = f' := by
      have : readEvents es = .ok f' := ha
      rw [hf] at this
      exact Res.ok.inj this
    subst hff
    unfold Spec.file at hs
    obtain ⟨gs, hgs, hs⟩ := Option.bind_eq_some_iff.1 hs
    obtain ⟨hlen, hall⟩ := hl _ _ _ hgs
    by_cases h0 : gs = []
    · rw [if_pos h0] at hs; cases hs
    · rw [if_neg h0] at hs
      obtain rfl := Option.some.inj hs
      refine ⟨?_, hlen, fun g hg => ?_⟩
      · intro h; rw [h] at hlen; exact h0 (List.eq_nil_of_length_eq_zero hlen)
      · have hgne := hall g hg
        unfold Spec.segment at hgne
        cases hv : every Spec.vector g.vectors with
        | none => rw [hv] at hgne; exact absurd rfl hgne
        | some vs =>
          rw [hv, Option.bind_some] at hgne
          refine ⟨fun key hk hn => ?_, fun v hvm key hk hn => ?_⟩
          · apply hgne
            have : Spec.info g.info = none := by
              unfold Spec.info
              simp only [List.mem_cons, List.not_mem_nil, or_false] at hk
              rcases hk with rfl | rfl | rfl | rfl | rfl <;> rw [hn] <;> simp
            rw [this]
            rfl
          · apply (hl _ _ _ hv).2 v hvm
            unfold Spec.vector number
            simp only [List.mem_cons, List.not_mem_nil, or_false] at hk
            rcases hk with rfl | rfl | rfl | rfl | rfl | rfl | rfl <;> rw [hn] <;> simp

/-! ### Findings -/

/-- A message with one state vector; `x` is what stands in its `X` element. -/
def sample (x : String) : Str :=
  ("<ndm:oem version=\"2.0\"><header><ORIGINATOR>ESA</ORIGINATOR></header><body><segment><metadata><OBJECT_ID>1</OBJECT_ID>" ++
   "<OBJECT_NAME>A</OBJECT_NAME><REF_FRAME>EME2000</REF_FRAME><TIME_SYSTEM>TT</TIME_SYSTEM><CENTER_NAME>EARTH</CENTER_NAME></metadata>" ++
   "<data><stateVector><EPOCH>2020-01-01T12:00:00.000</EPOCH><X>" ++ x ++ "</X><Y>2</Y><Z>3</Z><X_DOT>4</X_DOT><Y_DOT>5</Y_DOT>" ++
   "<Z_DOT>6</Z_DOT></stateVector></data></segment></body></ndm:oem>").toList

/-- The values of `X` in the message read. -/
def xs (text : Str) : Option (List (List F64)) :=
  match readXml text with
  | .ok f => some (f.segments.map (fun g => g.states.map State.x))
  | _ => none

example : xs (sample "1.5") = some [[.num (3/2)]] := by decide +kernel

/-- **C210, finding** An infinite coordinate is read, although the reader is said to refuse what is not finite (oem.rs:543-546). -/
theorem infinite_read : xs (sample "inf") = some [[.inf false]] := by decide +kernel

/-- **C210, finding** A comment within a number leaves the part after it. -/
theorem comment_splits : xs (sample "1<!--c-->2") = some [[.num 2]] := by decide +kernel

/-- **C211, finding** A name with an ampersand comes back as what follows it. -/
theorem name_truncated : (held "SMITH & CO".toList).getLast? = some "CO".toList := by decide +kernel

/-- **C211, finding** A name of special characters only is written, and then the message cannot be read. -/
theorem name_lost : (held "&".toList).getLast? = none := by decide +kernel

/-! ### Instances -/

/-- A document with a prefix and two segments, the second without vectors. -/
def twoSegments : Doc :=
  let i := [⟨"OBJECT_ID".toList, [], ["1".toList]⟩, ⟨"ndm:OBJECT_NAME".toList, [], ["A".toList, "B".toList]⟩, ⟨"REF_FRAME".toList, [], ["ICRF".toList]⟩,
    ⟨"TIME_SYSTEM".toList, [], ["TDB".toList]⟩, ⟨"CENTER_NAME".toList, [], ["SUN".toList]⟩]
  let n (k : String) (v : String) : Field := ⟨k.toList, [("units".toList, "km".toList)], [v.toList]⟩
  ⟨"ndm:".toList, [("version".toList, "2.0".toList)], [⟨"ORIGINATOR".toList, [], ["ESA".toList]⟩],
    [⟨i, [[n "EPOCH" "2020-01-01T12:00:00.000", n "X" "1", n "Y" "2", n "Z" "3", n "X_DOT" "4", n "Y_DOT" "5", n "Z_DOT" "6"]]⟩, ⟨i, []⟩]⟩

example : DocOk twoSegments := by
  constructor
  · exact Or.inr ⟨"ndm".toList, rfl⟩
  · simp only [twoSegments, FieldOk]; decide
  · simp only [twoSegments, FieldOk]; decide
  · simp only [twoSegments, FieldOk]; decide

example : ((Spec.file twoSegments).map (fun f => f.segments.map (fun g => (g.info.objectName, g.states.map State.vz)))) =
    some [("B".toList, [.num 6]), ("B".toList, [])] := by decide +kernel

example : ∃ text rs, writeXml ⟨"25544".toList, "ISS".toList, "EME2000".toList, "TT".toList, "EARTH".toList⟩
      [⟨2459000.5, 7000.1234567, 0, -1, 0, 7.5, 0⟩] = .ok text ∧
      List.Forall₂ Spec.Close [⟨2459000.5, 7000.1234567, 0, -1, 0, 7.5, 0⟩] rs ∧
      readXml text = .ok ⟨"3.0".toList, "2026-01-01T00:00:00".toList, "SIDERUST-POD".toList,
        [⟨⟨"25544".toList, "ISS".toList, "EME2000".toList, "TT".toList, "EARTH".toList⟩, rs⟩]⟩ := by
  apply write_read_plain (by simp)
  · intro s hs
    obtain rfl := List.mem_singleton.1 hs
    unfold Covered
    constructor <;> norm_num
  · decide

end Verif.OemXml.Props
