import Verif.Ccsds.Reader

/-
Property C66: an orbit ephemeris message that is written can be read back.
-/
namespace Verif.Ccsds.Props
open Verif.Text Verif.Ccsds Verif.Calendar

/-! ### Specification -/

/-- A name that fits on a line: no line feed, no white space at its ends (it may be empty). -/
def NameOk (s : Str) : Prop := Tight s ∧ '\n' ∉ s

structure MetaOk (m : Meta) : Prop where
  objectId : NameOk m.objectId
  objectName : NameOk m.objectName
  refFrame : NameOk m.refFrame
  timeSystem : NameOk m.timeSystem
  centerName : NameOk m.centerName

/-- The state read is the state written: half a microsecond, half a millimetre of the printed kilometres, half
a micrometre per second. -/
structure Close (s : State) (r : ReadState) : Prop where
  epoch : ∃ jd, r.epoch = .num jd ∧ |jd - s.epoch| * 86400 ≤ 1 / 2 / 10 ^ 6
  x : |r.x - s.x| ≤ 1 / 2 / 10 ^ 6
  y : |r.y - s.y| ≤ 1 / 2 / 10 ^ 6
  z : |r.z - s.z| ≤ 1 / 2 / 10 ^ 6
  vx : |r.vx - s.vx| ≤ 1 / 2 / 10 ^ 9
  vy : |r.vy - s.vy| ≤ 1 / 2 / 10 ^ 9
  vz : |r.vz - s.vz| ≤ 1 / 2 / 10 ^ 9

/-! ### Lines -/

theorem kv_written {k v : Str} (hne : k ≠ []) (hh : k.head?.all (fun c => !isWs c) = true) (he : '=' ∉ k)
    (hc : ∀ t, "COMMENT".toList.isPrefixOf (k ++ t) = false) (hv : Tight v) : KvLine (k ++ '=' :: ' ' :: v) (trim k) v := by
  have hhead : ∀ t c, (k ++ t).head? = some c → isWs c = false := by
    intro t c hc
    cases k with
    | nil => exact absurd rfl hne
    | cons a k =>
      obtain rfl : a = c := by simpa using hc
      simpa using hh
  by_cases hv0 : v = []
  · subst hv0
    have ht : trim (k ++ '=' :: ' ' :: []) = k ++ '=' :: [] := by
      unfold trim
      rw [trimStart_tight (hhead _)]
      unfold trimEnd
      rw [List.reverse_append]
      have : (['=', ' '] : Str).reverse ++ k.reverse = ' ' :: '=' :: k.reverse := rfl
      rw [this, List.dropWhile_cons_of_pos (by decide), List.dropWhile_cons_of_neg (by decide)]
      simp
    refine ⟨?_, k, [], ht, he, rfl, rfl⟩
    rintro (hb | hb)
    · rw [ht] at hb; simp at hb
    · rw [ht, hc] at hb; simp at hb
  · have ht : trim (k ++ '=' :: ' ' :: v) = k ++ '=' :: ' ' :: v := by
      apply trim_tight
      refine ⟨hhead _, fun c hcl => hv.2 c ?_⟩
      rw [List.getLast?_append_of_ne_nil _ (by simp)] at hcl
      rwa [List.getLast?_cons_cons, List.getLast?_cons_of_ne_nil hv0] at hcl
    refine ⟨?_, k, ' ' :: v, ht, he, rfl, ?_⟩
    · rintro (hb | hb)
      · rw [ht] at hb; simp at hb
      · rw [ht, hc] at hb; simp at hb
    · have : trim (' ' :: v) = trim v := by
        unfold trim trimStart
        rw [List.dropWhile_cons_of_pos (by decide)]
      rw [this, trim_tight hv]

theorem kv_lineOk {k v : Str} (hk : '\n' ∉ k) (hv : NameOk v) : LineOk (k ++ '=' :: ' ' :: v) := by
  constructor
  · intro h
    rcases List.mem_append.mp h with h | h
    · exact hk h
    · rcases List.mem_cons.mp h with h | h
      · exact absurd h (by decide)
      · rcases List.mem_cons.mp h with h | h
        · exact absurd h (by decide)
        · exact hv.2 h
  · rw [List.getLast?_append_of_ne_nil _ (by simp), List.getLast?_cons_cons]
    by_cases hv0 : v = []
    · subst hv0; decide
    · rw [List.getLast?_cons_of_ne_nil hv0]
      intro h
      exact absurd (hv.1.2 _ h) (by decide)

/-- The characters of a written epoch. -/
theorem iso_chars {jd : ℚ} (h0 : 1721059 + 1 / 2 ≤ jd) (h1 : jd < 700000000000 - 1) :
    jdToIso jd ≠ [] ∧ (∃ c t, jdToIso jd = c :: t ∧ c.isDigit = true) ∧ ∀ c ∈ jdToIso jd, isWs c = false := by
  obtain ⟨y, m, d, h, i, s, -, -, -, -, -, -, -, ht⟩ := iso_calendar h0 h1
  have hd : ∀ w n, ∀ c ∈ padLeft '0' w (natStr n), isWs c = false := by
    intro w n c hc
    exact isDigit_not_ws (List.all_eq_true.mp (digits_pad w n).2.1 c hc)
  have hs : ∀ c ∈ padLeft '0' 9 (fixedStr 6 (roundHalfEven (s * 10 ^ 6))), isWs c = false := by
    intro c hc
    unfold padLeft at hc
    rcases List.mem_append.mp hc with h | h
    · rw [List.eq_of_mem_replicate h]; decide
    · rcases fixedStr_chars _ _ c h with h | h
      · rw [h]; decide
      · exact isDigit_not_ws h
  obtain ⟨c, t, hct⟩ := List.exists_cons_of_ne_nil (digits_pad 4 y).1
  have hcd : c.isDigit = true := List.all_eq_true.mp (digits_pad 4 y).2.1 c (by rw [hct]; exact List.mem_cons_self)
  rw [ht]
  refine ⟨by simp, ⟨c, _, by rw [hct]; rfl, hcd⟩, ?_⟩
  intro c hc
  simp only [List.mem_append, List.mem_cons] at hc
  rcases hc with hc | rfl | hc | rfl | hc | rfl | hc | rfl | hc | rfl | hc
  · exact hd _ _ c hc
  · decide
  · exact hd _ _ c hc
  · decide
  · exact hd _ _ c hc
  · decide
  · exact hd _ _ c hc
  · decide
  · exact hd _ _ c hc
  · decide
  · exact hs c hc

theorem fmtFixed_ne (p : Nat) (q : ℚ) : fmtFixed p q ≠ [] := by
  intro h
  have := parseFloat_fmtFixed p q
  rw [h, show parseFloat [] = none by decide] at this
  exact absurd this (by simp)

/-- A written state line. -/
theorem state_written {s : State} (h0 : 1721059 + 1 / 2 ≤ s.epoch) (h1 : s.epoch < 700000000000 - 1) :
    ∃ r, DataLine (stateLine s) r ∧ Close s r ∧ LineOk (stateLine s) := by
  obtain ⟨hne, ⟨c, t, hct, hcd⟩, hws⟩ := iso_chars h0 h1
  obtain ⟨jd, he, -, hjd⟩ := iso_round_trip h0 h1
  have f := fun p q => fun c hc => (fmtFixed_chars p q c hc).2
  have hsp : isWs ' ' = true := by decide
  have htight : Tight (stateLine s) := by
    constructor
    · intro a ha
      unfold stateLine at ha
      rw [hct] at ha
      obtain rfl : c = a := by simpa using ha
      exact isDigit_not_ws hcd
    · intro a ha
      have hl : ∀ (u : Str) (v : Str), v ≠ [] → (u ++ ' ' :: v).getLast? = v.getLast? := by
        intro u v hv
        rw [List.getLast?_append_of_ne_nil _ (by simp), List.getLast?_cons_of_ne_nil hv]
      unfold stateLine at ha
      rw [hl _ _ (by simp), hl _ _ (by simp), hl _ _ (by simp), hl _ _ (by simp), hl _ _ (by simp), hl _ _ (fmtFixed_ne _ _)] at ha
      exact (fmtFixed_tight 9 s.vz).2 a ha
  have ht := trim_tight htight
  refine ⟨⟨.num jd, fixedValue 6 s.x, fixedValue 6 s.y, fixedValue 6 s.z, fixedValue 9 s.vx, fixedValue 9 s.vy, fixedValue 9 s.vz⟩,
    ⟨?_, ?_⟩, ?_, ?_, ?_⟩
  · rintro (hb | hb)
    · rw [ht] at hb
      unfold stateLine at hb
      simp at hb
    · rw [ht] at hb
      unfold stateLine at hb
      rw [hct] at hb
      have : 'C' = c := by
        simp [List.isPrefixOf] at hb
        exact hb.1
      subst this
      exact absurd hcd (by decide)
  · refine ⟨_, _, _, _, _, _, _, [], jd, ?_, he, rfl, parseFloat_fmtFixed 6 s.x, parseFloat_fmtFixed 6 s.y, parseFloat_fmtFixed 6 s.z,
      parseFloat_fmtFixed 9 s.vx, parseFloat_fmtFixed 9 s.vy, parseFloat_fmtFixed 9 s.vz⟩
    rw [ht]
    unfold stateLine
    rw [words_cons hne hws hsp, words_cons (fmtFixed_ne _ _) (f _ _) hsp, words_cons (fmtFixed_ne _ _) (f _ _) hsp,
      words_cons (fmtFixed_ne _ _) (f _ _) hsp, words_cons (fmtFixed_ne _ _) (f _ _) hsp, words_cons (fmtFixed_ne _ _) (f _ _) hsp,
      words_single (fmtFixed_ne _ _) (f _ _)]
  · exact ⟨⟨jd, rfl, hjd⟩, fixedValue_close 6 s.x, fixedValue_close 6 s.y, fixedValue_close 6 s.z, fixedValue_close 9 s.vx,
      fixedValue_close 9 s.vy, fixedValue_close 9 s.vz⟩
  · intro h
    have hall : ∀ a ∈ stateLine s, isWs a = false ∨ a = ' ' := by
      intro a ha
      unfold stateLine at ha
      simp only [List.mem_append, List.mem_cons] at ha
      rcases ha with h | h | h | h | h | h | h | h | h | h | h | h | h
      · exact Or.inl (hws a h)
      · exact Or.inr h
      · exact Or.inl (f _ _ a h)
      · exact Or.inr h
      · exact Or.inl (f _ _ a h)
      · exact Or.inr h
      · exact Or.inl (f _ _ a h)
      · exact Or.inr h
      · exact Or.inl (f _ _ a h)
      · exact Or.inr h
      · exact Or.inl (f _ _ a h)
      · exact Or.inr h
      · exact Or.inl (f _ _ a h)
    rcases hall _ h with h | h
    · exact absurd h (by decide)
    · exact absurd h (by decide)
  · intro h
    exact absurd (htight.2 _ h) (by decide)

theorem iso_nameOk {jd : ℚ} (h0 : 1721059 + 1 / 2 ≤ jd) (h1 : jd < 700000000000 - 1) : NameOk (jdToIso jd) := by
  obtain ⟨-, -, hws⟩ := iso_chars h0 h1
  exact ⟨tight_of_all hws, fun h => absurd (hws _ h) (by decide)⟩

theorem states_written {states : List State} (hs : ∀ s ∈ states, 1721059 + 1 / 2 ≤ s.epoch ∧ s.epoch < 700000000000 - 1) :
    ∃ ds : List (Str × Option ReadState), ds.map Prod.fst = states.map stateLine ∧ DataLines ds ∧
      List.Forall₂ Close states (ds.filterMap Prod.snd) ∧ ∀ l ∈ states.map stateLine, LineOk l := by
  induction states with
  | nil => exact ⟨[], rfl, fun l hl => absurd hl (by simp), List.Forall₂.nil, fun l hl => absurd hl (by simp)⟩
  | cons s states ih =>
    obtain ⟨ds, h1, h2, h3, h4⟩ := ih (fun s' hs' => hs s' (List.mem_cons_of_mem _ hs'))
    obtain ⟨r, hr, hc, hl⟩ := state_written (hs s List.mem_cons_self).1 (hs s List.mem_cons_self).2
    refine ⟨(stateLine s, some r) :: ds, by rw [List.map_cons, List.map_cons, h1], ?_, List.Forall₂.cons hc h3, ?_⟩
    · intro l hl
      rcases List.mem_cons.mp hl with rfl | hl
      · exact hr
      · exact h2 l hl
    · intro l hl'
      rw [List.map_cons] at hl'
      rcases List.mem_cons.mp hl' with rfl | hl'
      · exact hl
      · exact h4 l hl'

/-! ### C66 -/

/-- Writing a message and reading it back gives one segment with the same metadata and the same states in the
same order, to the printed precision: for every non-empty list of states from year 0 on and every five names
that fit on a line. -/
theorem write_read {m : Meta} {states : List State} (hne : states ≠ []) (hm : MetaOk m)
    (hs : ∀ s ∈ states, 1721059 + 1 / 2 ≤ s.epoch ∧ s.epoch < 700000000000 - 1) :
    ∃ text f rs, writeOem m states = .ok text ∧ readOem text = .ok f ∧ f.version = "3.0".toList ∧
      f.originator = "SIDERUST-POD".toList ∧ f.segments = [⟨m, rs⟩] ∧ List.Forall₂ Close states rs := by
  obtain ⟨first, rest, rfl⟩ := List.exists_cons_of_ne_nil hne
  obtain ⟨ds, hd1, hd2, hd3, hd4⟩ := states_written hs
  have hlast : (rest.getLast?).getD first ∈ first :: rest := by
    cases hr : rest.getLast? with
    | none => exact List.mem_cons_self
    | some a => exact List.mem_cons_of_mem _ (List.mem_of_getLast? hr)
  have nFirst := iso_nameOk (hs first List.mem_cons_self).1 (hs first List.mem_cons_self).2
  have nLast := iso_nameOk (hs _ hlast).1 (hs _ hlast).2
  have blank : Blank [] := Or.inl rfl
  let hdr : List (Str × Option (Str × Str)) :=
    [("CCSDS_OEM_VERS ".toList ++ '=' :: ' ' :: "3.0".toList, some (trim "CCSDS_OEM_VERS ".toList, "3.0".toList)),
     ("CREATION_DATE  ".toList ++ '=' :: ' ' :: "2026-01-01T00:00:00".toList, some (trim "CREATION_DATE  ".toList, "2026-01-01T00:00:00".toList)),
     ("ORIGINATOR     ".toList ++ '=' :: ' ' :: "SIDERUST-POD".toList, some (trim "ORIGINATOR     ".toList, "SIDERUST-POD".toList)),
     ([], none)]
  let mets : List (Str × Option (Str × Str)) :=
    [("OBJECT_NAME          ".toList ++ '=' :: ' ' :: m.objectName, some (trim "OBJECT_NAME          ".toList, m.objectName)),
     ("OBJECT_ID            ".toList ++ '=' :: ' ' :: m.objectId, some (trim "OBJECT_ID            ".toList, m.objectId)),
     ("CENTER_NAME          ".toList ++ '=' :: ' ' :: m.centerName, some (trim "CENTER_NAME          ".toList, m.centerName)),
     ("REF_FRAME            ".toList ++ '=' :: ' ' :: m.refFrame, some (trim "REF_FRAME            ".toList, m.refFrame)),
     ("TIME_SYSTEM          ".toList ++ '=' :: ' ' :: m.timeSystem, some (trim "TIME_SYSTEM          ".toList, m.timeSystem)),
     ("START_TIME           ".toList ++ '=' :: ' ' :: jdToIso first.epoch, some (trim "START_TIME           ".toList, jdToIso first.epoch)),
     ("STOP_TIME            ".toList ++ '=' :: ' ' :: jdToIso ((rest.getLast?).getD first).epoch,
       some (trim "STOP_TIME            ".toList, jdToIso ((rest.getLast?).getD first).epoch))]
  let g : SegText := ⟨"META_START".toList, mets, "META_STOP".toList, ([], none) :: ds⟩
  have hw : writeOem m (first :: rest) = .ok (unlines (hdr.map Prod.fst ++ [(g, (⟨m, ds.filterMap Prod.snd⟩ : Segment))].flatMap (fun g => g.1.lines))) := by
    unfold writeOem writeLines
    have e0 : "OBJECT_NAME          = ".toList = "OBJECT_NAME          ".toList ++ ['=', ' '] := by decide
    have e1 : "OBJECT_ID            = ".toList = "OBJECT_ID            ".toList ++ ['=', ' '] := by decide
    have e2 : "CENTER_NAME          = ".toList = "CENTER_NAME          ".toList ++ ['=', ' '] := by decide
    have e3 : "REF_FRAME            = ".toList = "REF_FRAME            ".toList ++ ['=', ' '] := by decide
    have e4 : "TIME_SYSTEM          = ".toList = "TIME_SYSTEM          ".toList ++ ['=', ' '] := by decide
    have e5 : "START_TIME           = ".toList = "START_TIME           ".toList ++ ['=', ' '] := by decide
    have e6 : "STOP_TIME            = ".toList = "STOP_TIME            ".toList ++ ['=', ' '] := by decide
    have f0 : "CCSDS_OEM_VERS = 3.0".toList = "CCSDS_OEM_VERS ".toList ++ '=' :: ' ' :: "3.0".toList := by decide
    have f1 : "CREATION_DATE  = 2026-01-01T00:00:00".toList = "CREATION_DATE  ".toList ++ '=' :: ' ' :: "2026-01-01T00:00:00".toList := by decide
    have f2 : "ORIGINATOR     = SIDERUST-POD".toList = "ORIGINATOR     ".toList ++ '=' :: ' ' :: "SIDERUST-POD".toList := by decide
    rw [e0, e1, e2, e3, e4, e5, e6, f0, f1, f2]
    simp only [Res.bind, g, hdr, mets, SegText.lines, List.flatMap_cons, List.flatMap_nil, List.map_cons, List.map_nil, hd1, List.append_assoc, List.cons_append,
      List.nil_append, List.append_nil]
  have hhdr : KvLines hdr := by
    intro l hl
    simp only [hdr, List.mem_cons, List.not_mem_nil, or_false] at hl
    rcases hl with rfl | rfl | rfl | rfl
    · exact kv_written (by decide) (by decide) (by decide) (fun _ => rfl) (tight_of_all (by decide))
    · exact kv_written (by decide) (by decide) (by decide) (fun _ => rfl) (tight_of_all (by decide))
    · exact kv_written (by decide) (by decide) (by decide) (fun _ => rfl) (tight_of_all (by decide))
    · exact blank
  have hmets : KvLines mets := by
    intro l hl
    simp only [mets, List.mem_cons, List.not_mem_nil, or_false] at hl
    rcases hl with rfl | rfl | rfl | rfl | rfl | rfl | rfl
    · exact kv_written (by decide) (by decide) (by decide) (fun _ => rfl) hm.objectName.1
    · exact kv_written (by decide) (by decide) (by decide) (fun _ => rfl) hm.objectId.1
    · exact kv_written (by decide) (by decide) (by decide) (fun _ => rfl) hm.centerName.1
    · exact kv_written (by decide) (by decide) (by decide) (fun _ => rfl) hm.refFrame.1
    · exact kv_written (by decide) (by decide) (by decide) (fun _ => rfl) hm.timeSystem.1
    · exact kv_written (by decide) (by decide) (by decide) (fun _ => rfl) nFirst.1
    · exact kv_written (by decide) (by decide) (by decide) (fun _ => rfl) nLast.1
  have hg : SegOk g ⟨m, ds.filterMap Prod.snd⟩ := by
    refine ⟨show trim "META_START".toList = _ by decide, hmets, show trim "META_STOP".toList = _ by decide, ?_, rfl, rfl, rfl, rfl, rfl, rfl⟩
    intro l hl
    rcases List.mem_cons.mp hl with rfl | hl
    · exact blank
    · exact hd2 l hl
  have hok : ∀ l ∈ hdr.map Prod.fst ++ [(g, (⟨m, ds.filterMap Prod.snd⟩ : Segment))].flatMap (fun g => g.1.lines), LineOk l := by
    intro l hl
    simp only [hdr, g, mets, SegText.lines, List.flatMap_cons, List.flatMap_nil, List.map_cons, List.map_nil, List.append_nil, List.mem_append,
      List.mem_cons, List.not_mem_nil, or_false, hd1] at hl
    rcases hl with (rfl | rfl | rfl | rfl) | rfl | (rfl | rfl | rfl | rfl | rfl | rfl | rfl) | rfl | rfl | hl
    · exact ⟨by decide, by decide⟩
    · exact ⟨by decide, by decide⟩
    · exact ⟨by decide, by decide⟩
    · exact ⟨by decide, by decide⟩
    · exact ⟨by decide, by decide⟩
    · exact kv_lineOk (by decide) hm.objectName
    · exact kv_lineOk (by decide) hm.objectId
    · exact kv_lineOk (by decide) hm.centerName
    · exact kv_lineOk (by decide) hm.refFrame
    · exact kv_lineOk (by decide) hm.timeSystem
    · exact kv_lineOk (by decide) nFirst
    · exact kv_lineOk (by decide) nLast
    · exact ⟨by decide, by decide⟩
    · exact ⟨by decide, by decide⟩
    · exact hd4 l (by rw [List.map_cons]; exact List.mem_cons.mpr hl)
  refine ⟨_, _, ds.filterMap Prod.snd, hw, read_segments_partial hhdr (gs := [(g, ⟨m, ds.filterMap Prod.snd⟩)]) ?_ (by simp) (lines_unlines hok), ?_, ?_, rfl, hd3⟩
  · intro g' hg'
    obtain rfl := List.mem_singleton.mp hg'
    exact hg
  · rfl
  · rfl

/-- A message of two states and an empty name. -/
example : ∃ text f rs, writeOem ⟨"1998-067A".toList, [], "ICRF".toList, "UTC".toList, "EARTH".toList⟩
      [⟨2460000 + 1 / 7, 7000 + 1 / 3, -1, 0, 1 / 9, -7, 0⟩, ⟨2460001, 1, 2, 3, 4, 5, 6⟩] = .ok text ∧ readOem text = .ok f ∧
      f.version = "3.0".toList ∧ f.originator = "SIDERUST-POD".toList ∧
      f.segments = [⟨⟨"1998-067A".toList, [], "ICRF".toList, "UTC".toList, "EARTH".toList⟩, rs⟩] ∧
      List.Forall₂ Close [⟨2460000 + 1 / 7, 7000 + 1 / 3, -1, 0, 1 / 9, -7, 0⟩, ⟨2460001, 1, 2, 3, 4, 5, 6⟩] rs := by
  apply write_read (by simp)
  · constructor
    · exact ⟨tight_of_all (by decide), by decide⟩
    · exact ⟨tight_of_all (by decide), by decide⟩
    · exact ⟨tight_of_all (by decide), by decide⟩
    · exact ⟨tight_of_all (by decide), by decide⟩
    · exact ⟨tight_of_all (by decide), by decide⟩
  · intro s hs
    rcases List.mem_cons.mp hs with rfl | hs
    · norm_num
    · obtain rfl := List.mem_singleton.mp hs
      norm_num

/-- Disagreement: a name with a line feed is written without complaint, and forges other metadata. -/
theorem forged_metadata :
    ∃ text f, writeOem ⟨"A".toList, "N".toList, "ICRF".toList, "UTC\nOBJECT_ID = B".toList, "EARTH".toList⟩
        [⟨2460000, 1, 2, 3, 4, 5, 6⟩] = .ok text ∧ readOem text = .ok f ∧
      f.segments.map (fun g => g.info.objectId) = ["B".toList] :=
  ⟨_, ⟨"3.0".toList, "2026-01-01T00:00:00".toList, "SIDERUST-POD".toList,
    [⟨⟨"B".toList, "N".toList, "ICRF".toList, "UTC".toList, "EARTH".toList⟩, [⟨.num 2460000, 1, 2, 3, 4, 5, 6⟩]⟩]⟩, rfl, by decide +kernel, rfl⟩

end Verif.Ccsds.Props
