import Verif.Omm.Text

/-
Round trips of orbit mean-elements messages, conversion from and to element sets, the builder.
-/
namespace Verif.Omm.Props
open Verif.Text Verif.Omm
open Verif.Kvn.Props (Carried Near Assigns Silent Says)

variable {T : Type}

/-! ### Specification -/

/-- The ranges of the integer fields (`u8`, `u16`, `u32`). -/
structure InRange (o : Omm T) : Prop where
  ephemeris : o.ephemeris < 256
  elset : o.elset < 65536
  rev : o.rev < 4294967296
  norad : o.norad < 4294967296

/-- The message read is the one written: names and integers exactly, the mean motion to half a unit of the eighth decimal,
the eccentricity of the seventh, angles of the fourth, the drag term and the derivatives to nine digits. -/
structure Same (o r : Omm T) : Prop where
  name : r.name = o.name
  ident : r.ident = o.ident
  meanMotion : Near (1 / 200000000) o.meanMotion r.meanMotion
  ecc : Near (1 / 20000000) o.ecc r.ecc
  inc : Near (1 / 20000) o.inc r.inc
  node : Near (1 / 20000) o.node r.node
  peri : Near (1 / 20000) o.peri r.peri
  anomaly : Near (1 / 20000) o.anomaly r.anomaly
  ephemeris : r.ephemeris = o.ephemeris
  cls : r.cls = o.cls
  norad : r.norad = o.norad
  elset : r.elset = o.elset
  rev : r.rev = o.rev
  bstar : NearRel o.bstar r.bstar
  nDot : NearRel o.nDot r.nDot
  nDdot : NearRel o.nDdot r.nDdot

/-- Values with no more digits than are written. -/
structure Coarse (o : Omm T) : Prop where
  meanMotion : Decimals 8 o.meanMotion
  ecc : Decimals 7 o.ecc
  inc : Decimals 4 o.inc
  node : Decimals 4 o.node
  peri : Decimals 4 o.peri
  anomaly : Decimals 4 o.anomaly
  bstar : Nine o.bstar
  nDot : Nine o.nDot
  nDdot : Nine o.nDdot

/-! ### What is read back -/

/-- The message read back. -/
def printed (o : Omm T) (t : T) : Omm T :=
  { o with
    epoch := t
    meanMotion := back 8 o.meanMotion
    ecc := back 7 o.ecc
    inc := back 4 o.inc
    node := back 4 o.node
    peri := back 4 o.peri
    anomaly := back 4 o.anomaly
    bstar := backSci o.bstar
    nDot := backSci o.nDot
    nDdot := backSci o.nDdot }

theorem printed_same (o : Omm T) (t : T) : Same o (printed o t) := by
  have e8 : (1 : ℚ) / 2 / 10 ^ 8 = 1 / 200000000 := by norm_num
  have e7 : (1 : ℚ) / 2 / 10 ^ 7 = 1 / 20000000 := by norm_num
  have e4 : (1 : ℚ) / 2 / 10 ^ 4 = 1 / 20000 := by norm_num
  exact ⟨rfl, rfl, e8 ▸ back_near 8 _, e7 ▸ back_near 7 _, e4 ▸ back_near 4 _, e4 ▸ back_near 4 _, e4 ▸ back_near 4 _,
    e4 ▸ back_near 4 _, rfl, rfl, rfl, rfl, rfl, backSci_near _, backSci_near _, backSci_near _⟩

theorem printed_exact {o : Omm T} (h : Coarse o) : printed o o.epoch = o := by
  unfold printed
  rw [back_exact h.meanMotion, back_exact h.ecc, back_exact h.inc, back_exact h.node, back_exact h.peri, back_exact h.anomaly,
    backSci_exact h.bstar, backSci_exact h.nDot, backSci_exact h.nDdot]

/-- The values a written document gives. -/
structure Table (m : Kvn.Map) (o : Omm T) (nm idn epoch : Str) : Prop where
  theory : m "MEAN_ELEMENT_THEORY".toList = some "SGP4".toList
  name : m "OBJECT_NAME".toList = some nm
  ident : m "OBJECT_ID".toList = some idn
  epoch : m "EPOCH".toList = some epoch
  cls : m "CLASSIFICATION_TYPE".toList = some [o.cls.asChar]
  norad : m "NORAD_CAT_ID".toList = some (natStr o.norad)
  meanMotion : m "MEAN_MOTION".toList = some (Sp3.fmtF64 8 o.meanMotion)
  ecc : m "ECCENTRICITY".toList = some (Sp3.fmtF64 7 o.ecc)
  inc : m "INCLINATION".toList = some (Sp3.fmtF64 4 o.inc)
  node : m "RA_OF_ASC_NODE".toList = some (Sp3.fmtF64 4 o.node)
  peri : m "ARG_OF_PERICENTER".toList = some (Sp3.fmtF64 4 o.peri)
  anomaly : m "MEAN_ANOMALY".toList = some (Sp3.fmtF64 4 o.anomaly)
  ephemeris : m "EPHEMERIS_TYPE".toList = some (natStr o.ephemeris)
  elset : m "ELEMENT_SET_NO".toList = some (natStr o.elset)
  rev : m "REV_AT_EPOCH".toList = some (natStr o.rev)
  bstar : m "BSTAR".toList = some (sci o.bstar)
  nDot : m "MEAN_MOTION_DOT".toList = some (sci o.nDot)
  nDdot : m "MEAN_MOTION_DDOT".toList = some (sci o.nDdot)

theorem natStr_uint {n max : Nat} (h : n ≤ max) : parseUInt max (natStr n) = some n := by
  obtain ⟨d1, d2, d3⟩ := natStr_digits n
  rw [parseUInt_of d1 d2 (by rw [d3]; omega), d3]

theorem natStr_trimStart (n : Nat) : trimStart (natStr n) = natStr n :=
  trimStart_tight (clean_carried (clean_nat n)).1.1

theorem small_catalogue {n : Nat} (h : n < 100000) : Catalogue (trimStart (natStr n)) n := by
  obtain ⟨d1, d2, d3⟩ := natStr_digits n
  rw [natStr_trimStart]
  exact Or.inl ⟨natStr_length_le 4 n (by omega), by rw [parseDigits_of d1 d2, d3]⟩

theorem build_table {env : Env T} {un : Str → Str} {m : Kvn.Map} {o : Omm T} {nm idn epoch : Str} {t : T}
    (h : Table m o nm idn epoch) (hn : un nm = o.name) (hi : un idn = o.ident) (ht : Instant env epoch t)
    (hr : InRange o) (hs : o.norad < 100000) : build env un m = .ok (printed o t) := by
  apply ((build_iff env un m).1 _).mpr
  constructor
  · intro x hx
    rw [h.theory] at hx
    cases hx
    decide
  · exact ⟨nm, h.name, hn.symm⟩
  · exact ⟨idn, h.ident, hi.symm⟩
  · exact ⟨epoch, h.epoch, ht⟩
  · left
    refine ⟨_, _, h.cls, ?_⟩
    show Letter o.cls.asChar o.cls
    cases o.cls <;> trivial
  · exact ⟨_, h.norad, small_catalogue hs⟩
  · exact ⟨_, h.meanMotion, back_reads _ _⟩
  · exact ⟨_, h.ecc, back_reads _ _⟩
  · exact ⟨_, h.inc, back_reads _ _⟩
  · exact ⟨_, h.node, back_reads _ _⟩
  · exact ⟨_, h.peri, back_reads _ _⟩
  · exact ⟨_, h.anomaly, back_reads _ _⟩
  · exact Or.inl ⟨_, h.ephemeris, natStr_uint (by have := hr.ephemeris; show o.ephemeris ≤ _; omega)⟩
  · exact Or.inl ⟨_, h.elset, natStr_uint (by have := hr.elset; show o.elset ≤ _; omega)⟩
  · exact Or.inl ⟨_, h.rev, natStr_uint (by have := hr.rev; show o.rev ≤ _; omega)⟩
  · exact Or.inl ⟨_, h.bstar, sci_reads _⟩
  · exact Or.inl ⟨_, h.nDot, sci_reads _⟩
  · exact Or.inl ⟨_, h.nDdot, sci_reads _⟩

theorem build_large {env : Env T} {un : Str → Str} {m : Kvn.Map} {o : Omm T} {nm idn epoch : Str} {t : T}
    (h : Table m o nm idn epoch) (ht : Instant env epoch t) (hs : 100000 ≤ o.norad) :
    build env un m = .err (.satellite .invalidAlpha5) := by
  have hsat : satellite (natStr o.norad) = .err (.satellite .invalidAlpha5) := by
    unfold satellite Tle.parseSat
    rw [natStr_trimStart]
    have : blen (natStr o.norad) > 5 := by
      rw [blen_ascii (all_digit_ascii (natStr_digits _).1)]
      exact natStr_length_gt 5 _ (by omega)
    simp [this]
  have hcls : fromChar o.cls.asChar = .ok o.cls := by cases o.cls <;> rfl
  have he : eqIgnoreCase "SGP4".toList "SGP4".toList = true := by decide
  unfold build
  simp only [h.theory, get, h.name, h.ident, h.epoch, h.cls, h.norad, Option.getD_some, he, Res.ofOption, Res.bind,
    (parseEpoch_iff env epoch t).mpr ht, List.headD_cons, hcls, hsat]
  rfl

/-! ### Keyword form -/

theorem kv_line {key : String} {v : Str} (hk : (∀ c ∈ key.toList, isWs c = false) ∧ key.toList ≠ [] ∧ '=' ∉ key.toList ∧
    "COMMENT".toList.isPrefixOf (key.toList ++ [' ']) = false) (hv : Carried v) (m : Kvn.Map) :
    kvnLine m (kv key v) = Kvn.insert m key.toList v := by
  rw [kvnLine_eq]
  apply Kvn.Props.assigns_line
  obtain ⟨h1, h2, h3, h4⟩ := hk
  have := Kvn.Props.field_assigns (pad := [' ']) (tight_of_all h1) h2 h3 (by simp) (by
    rw [← List.append_assoc]
    exact Kvn.Props.eq_not_comment h4) hv
  exact this

theorem kv_ok {key : String} {v : Str} (hk : '\n' ∉ key.toList) (hv : Carried v) : LineOk (kv key v) := by
  unfold kv
  constructor
  · intro h
    simp only [List.mem_append] at h
    rcases h with h | h | h
    · exact hk h
    · exact absurd h (by decide)
    · exact hv.2 h
  · by_cases h0 : v = []
    · subst h0
      rw [List.append_nil, List.getLast?_append_of_ne_nil _ (by decide)]
      decide
    · rw [← List.append_assoc, List.getLast?_append_of_ne_nil _ h0]
      intro h
      exact absurd (hv.1.2 _ h) (by decide)

theorem kvn_lines_ok {o : Omm T} {c : Civil} (hn : Carried o.name) (hi : Carried o.ident) :
    ∀ l ∈ kvnLines o (stamp c), LineOk l := by
  have cs := clean_carried (clean_stamp c)
  have cf : ∀ p v, Carried (Sp3.fmtF64 p v) := fun p v => clean_carried (clean_fmt p v)
  have ce : ∀ v, Carried (sci v) := fun v => clean_carried (clean_sci v)
  have cn : ∀ v, Carried (natStr v) := fun v => clean_carried (clean_nat v)
  have lit : ∀ s : Str, (s.all (fun c => isWs c = false) = true) → Carried s := by
    intro s h
    refine ⟨tight_of_all fun c hc => by simpa using List.all_eq_true.mp h c hc, fun hc => ?_⟩
    have := List.all_eq_true.mp h _ hc
    simp at this
    exact absurd this (by decide)
  unfold kvnLines
  simp only [List.forall_mem_cons, List.not_mem_nil, false_imp_iff, implies_true, and_true]
  exact ⟨kv_ok (by decide) (lit _ (by decide)), kv_ok (by decide) cs, kv_ok (by decide) (lit _ (by decide)), kv_ok (by decide) hn,
    kv_ok (by decide) hi, kv_ok (by decide) (lit _ (by decide)), kv_ok (by decide) (lit _ (by decide)),
    kv_ok (by decide) (lit _ (by decide)), kv_ok (by decide) (lit _ (by decide)), kv_ok (by decide) cs, kv_ok (by decide) (cf _ _),
    kv_ok (by decide) (cf _ _), kv_ok (by decide) (cf _ _), kv_ok (by decide) (cf _ _), kv_ok (by decide) (cf _ _),
    kv_ok (by decide) (cf _ _), kv_ok (by decide) (cn _), kv_ok (by decide) (clean_carried (clean_class _)), kv_ok (by decide) (cn _),
    kv_ok (by decide) (cn _), kv_ok (by decide) (cn _), kv_ok (by decide) (ce _), kv_ok (by decide) (ce _), kv_ok (by decide) (ce _)⟩

theorem kvn_table {o : Omm T} {c : Civil} (hn : Carried o.name) (hi : Carried o.ident) :
    Table ((kvnLines o (stamp c)).foldl kvnLine (fun _ => none)) o o.name o.ident (stamp c) := by
  have cs := clean_carried (clean_stamp c)
  have cf : ∀ p v, Carried (Sp3.fmtF64 p v) := fun p v => clean_carried (clean_fmt p v)
  have ce : ∀ v, Carried (sci v) := fun v => clean_carried (clean_sci v)
  have cn : ∀ v, Carried (natStr v) := fun v => clean_carried (clean_nat v)
  have lit : ∀ s : Str, (s.all (fun c => isWs c = false) = true) → Carried s := by
    intro s h
    refine ⟨tight_of_all fun c hc => by simpa using List.all_eq_true.mp h c hc, fun hc => ?_⟩
    have := List.all_eq_true.mp h _ hc
    simp at this
    exact absurd this (by decide)
  have e : (kvnLines o (stamp c)).foldl kvnLine (fun _ => none) = (Kvn.insert (Kvn.insert (Kvn.insert (Kvn.insert (Kvn.insert
      (Kvn.insert (Kvn.insert (Kvn.insert (Kvn.insert (Kvn.insert (Kvn.insert (Kvn.insert (Kvn.insert (Kvn.insert (Kvn.insert
      (Kvn.insert (Kvn.insert (Kvn.insert (Kvn.insert (Kvn.insert (Kvn.insert (Kvn.insert (Kvn.insert (Kvn.insert (fun _ => none)
      "CCSDS_OMM_VERS".toList "2.0".toList) "CREATION_DATE".toList (stamp c)) "ORIGINATOR".toList "siderust-tle".toList)
      "OBJECT_NAME".toList o.name) "OBJECT_ID".toList o.ident) "CENTER_NAME".toList "EARTH".toList) "REF_FRAME".toList "TEME".toList)
      "TIME_SYSTEM".toList "UTC".toList) "MEAN_ELEMENT_THEORY".toList "SGP4".toList) "EPOCH".toList (stamp c))
      "MEAN_MOTION".toList (Sp3.fmtF64 8 o.meanMotion)) "ECCENTRICITY".toList (Sp3.fmtF64 7 o.ecc))
      "INCLINATION".toList (Sp3.fmtF64 4 o.inc)) "RA_OF_ASC_NODE".toList (Sp3.fmtF64 4 o.node))
      "ARG_OF_PERICENTER".toList (Sp3.fmtF64 4 o.peri)) "MEAN_ANOMALY".toList (Sp3.fmtF64 4 o.anomaly))
      "EPHEMERIS_TYPE".toList (natStr o.ephemeris)) "CLASSIFICATION_TYPE".toList [o.cls.asChar]) "NORAD_CAT_ID".toList (natStr o.norad))
      "ELEMENT_SET_NO".toList (natStr o.elset)) "REV_AT_EPOCH".toList (natStr o.rev)) "BSTAR".toList (sci o.bstar))
      "MEAN_MOTION_DOT".toList (sci o.nDot)) "MEAN_MOTION_DDOT".toList (sci o.nDdot)) := by
    unfold kvnLines
    simp only [List.foldl_cons, List.foldl_nil]
    rw [kv_line (key := "MEAN_MOTION_DDOT") (by decide) (ce _),
      kv_line (key := "MEAN_MOTION_DOT") (by decide) (ce _),
      kv_line (key := "BSTAR") (by decide) (ce _),
      kv_line (key := "REV_AT_EPOCH") (by decide) (cn _),
      kv_line (key := "ELEMENT_SET_NO") (by decide) (cn _),
      kv_line (key := "NORAD_CAT_ID") (by decide) (cn _),
      kv_line (key := "CLASSIFICATION_TYPE") (by decide) (clean_carried (clean_class _)),
      kv_line (key := "EPHEMERIS_TYPE") (by decide) (cn _),
      kv_line (key := "MEAN_ANOMALY") (by decide) (cf _ _),
      kv_line (key := "ARG_OF_PERICENTER") (by decide) (cf _ _),
      kv_line (key := "RA_OF_ASC_NODE") (by decide) (cf _ _),
      kv_line (key := "INCLINATION") (by decide) (cf _ _),
      kv_line (key := "ECCENTRICITY") (by decide) (cf _ _),
      kv_line (key := "MEAN_MOTION") (by decide) (cf _ _),
      kv_line (key := "EPOCH") (by decide) cs,
      kv_line (key := "MEAN_ELEMENT_THEORY") (by decide) (lit "SGP4".toList (by decide)),
      kv_line (key := "TIME_SYSTEM") (by decide) (lit "UTC".toList (by decide)),
      kv_line (key := "REF_FRAME") (by decide) (lit "TEME".toList (by decide)),
      kv_line (key := "CENTER_NAME") (by decide) (lit "EARTH".toList (by decide)),
      kv_line (key := "OBJECT_ID") (by decide) hi,
      kv_line (key := "OBJECT_NAME") (by decide) hn,
      kv_line (key := "ORIGINATOR") (by decide) (lit "siderust-tle".toList (by decide)),
      kv_line (key := "CREATION_DATE") (by decide) cs,
      kv_line (key := "CCSDS_OMM_VERS") (by decide) (lit "2.0".toList (by decide))]
  rw [e]
  constructor <;> simp only [Kvn.insert, String.toList_inj, String.reduceEq, ↓reduceIte]

theorem writeKvn_ok {env : Env T} {o : Omm T} {c : Civil} (h : env.civil o.epoch = some c) :
    writeKvn env o = .ok (unlines (kvnLines o (stamp c))) := by
  unfold writeKvn formatEpoch
  rw [h]
  rfl

/-- Writing a message in keyword form and reading the text gives the message back, for catalogue numbers below 100000:
names and integers exactly, numbers to the digits written, the epoch as `chrono` reads the stamp. -/
theorem kvn_round_trip {env : Env T} {o : Omm T} {c c' : Civil} {t : T} (hc : env.civil o.epoch = some c)
    (hp : env.parse (stamp c) = some c') (ht : env.make c' = some t) (hn : Carried o.name) (hi : Carried o.ident)
    (hr : InRange o) (hs : o.norad < 100000) :
    ∃ text r, writeKvn env o = .ok text ∧ readKvn env text = .ok r ∧ r.epoch = t ∧ Same o r := by
  refine ⟨_, printed o t, writeKvn_ok hc, ?_, rfl, printed_same o t⟩
  unfold readKvn
  rw [lines_unlines (kvn_lines_ok hn hi)]
  exact build_table (kvn_table hn hi) rfl rfl (stamp_reads hp ht) hr hs

/-- Values with no more digits than are written, and an epoch that the stamp gives back, survive exactly. -/
theorem kvn_exact {env : Env T} {o : Omm T} {c c' : Civil} (hc : env.civil o.epoch = some c)
    (hp : env.parse (stamp c) = some c') (ht : env.make c' = some o.epoch) (hn : Carried o.name) (hi : Carried o.ident)
    (hr : InRange o) (hs : o.norad < 100000) (hd : Coarse o) :
    ∃ text, writeKvn env o = .ok text ∧ readKvn env text = .ok o := by
  refine ⟨_, writeKvn_ok hc, ?_⟩
  unfold readKvn
  rw [lines_unlines (kvn_lines_ok hn hi), build_table (kvn_table hn hi) rfl rfl (stamp_reads hp ht) hr hs, printed_exact hd]

/-- A message with a catalogue number of six or more digits is written without complaint, and the text is refused. -/
theorem kvn_large_refused {env : Env T} {o : Omm T} {c c' : Civil} {t : T} (hc : env.civil o.epoch = some c)
    (hp : env.parse (stamp c) = some c') (ht : env.make c' = some t) (hn : Carried o.name) (hi : Carried o.ident)
    (hs : 100000 ≤ o.norad) :
    ∃ text, writeKvn env o = .ok text ∧ readKvn env text = .err (.satellite .invalidAlpha5) := by
  refine ⟨_, writeKvn_ok hc, ?_⟩
  unfold readKvn
  rw [lines_unlines (kvn_lines_ok hn hi)]
  exact build_large (kvn_table hn hi) (stamp_reads hp ht) hs

/-! ### XML form -/

/-- The written document, opening bracket by opening bracket. -/
def pieces (o : Omm T) (e : Str) : List (Str × Str) :=
  [("?xml version=\"1.0\" encoding=\"UTF-8\"?".toList, ['\n']),
   ("omm id=\"CCSDS_OMM_VERS\" version=\"2.0\"".toList, ['\n']),
   ("body".toList, []),
   ("segment".toList, []),
   ("metadata".toList, ['\n']),
   ("OBJECT_NAME".toList, escape o.name),
   ("/OBJECT_NAME".toList, ['\n']),
   ("OBJECT_ID".toList, escape o.ident),
   ("/OBJECT_ID".toList, ['\n']),
   ("CENTER_NAME".toList, "EARTH".toList),
   ("/CENTER_NAME".toList, ['\n']),
   ("REF_FRAME".toList, "TEME".toList),
   ("/REF_FRAME".toList, ['\n']),
   ("TIME_SYSTEM".toList, "UTC".toList),
   ("/TIME_SYSTEM".toList, ['\n']),
   ("MEAN_ELEMENT_THEORY".toList, "SGP4".toList),
   ("/MEAN_ELEMENT_THEORY".toList, ['\n']),
   ("/metadata".toList, []),
   ("data".toList, ['\n']),
   ("meanElements".toList, ['\n']),
   ("EPOCH".toList, e),
   ("/EPOCH".toList, ['\n']),
   ("MEAN_MOTION".toList, Sp3.fmtF64 8 o.meanMotion),
   ("/MEAN_MOTION".toList, ['\n']),
   ("ECCENTRICITY".toList, Sp3.fmtF64 7 o.ecc),
   ("/ECCENTRICITY".toList, ['\n']),
   ("INCLINATION".toList, Sp3.fmtF64 4 o.inc),
   ("/INCLINATION".toList, ['\n']),
   ("RA_OF_ASC_NODE".toList, Sp3.fmtF64 4 o.node),
   ("/RA_OF_ASC_NODE".toList, ['\n']),
   ("ARG_OF_PERICENTER".toList, Sp3.fmtF64 4 o.peri),
   ("/ARG_OF_PERICENTER".toList, ['\n']),
   ("MEAN_ANOMALY".toList, Sp3.fmtF64 4 o.anomaly),
   ("/MEAN_ANOMALY".toList, ['\n']),
   ("/meanElements".toList, ['\n']),
   ("tleParameters".toList, ['\n']),
   ("EPHEMERIS_TYPE".toList, natStr o.ephemeris),
   ("/EPHEMERIS_TYPE".toList, ['\n']),
   ("CLASSIFICATION_TYPE".toList, [o.cls.asChar]),
   ("/CLASSIFICATION_TYPE".toList, ['\n']),
   ("NORAD_CAT_ID".toList, natStr o.norad),
   ("/NORAD_CAT_ID".toList, ['\n']),
   ("ELEMENT_SET_NO".toList, natStr o.elset),
   ("/ELEMENT_SET_NO".toList, ['\n']),
   ("REV_AT_EPOCH".toList, natStr o.rev),
   ("/REV_AT_EPOCH".toList, ['\n']),
   ("BSTAR".toList, sci o.bstar),
   ("/BSTAR".toList, ['\n']),
   ("MEAN_MOTION_DOT".toList, sci o.nDot),
   ("/MEAN_MOTION_DOT".toList, ['\n']),
   ("MEAN_MOTION_DDOT".toList, sci o.nDdot),
   ("/MEAN_MOTION_DDOT".toList, ['\n']),
   ("/tleParameters".toList, ['\n']),
   ("/data".toList, []),
   ("/segment".toList, []),
   ("/body".toList, []),
   ("/omm".toList, ['\n'])]

def pieceNames : List String :=
  ["?xml version=\"1.0\" encoding=\"UTF-8\"?", "omm id=\"CCSDS_OMM_VERS\" version=\"2.0\"", "body", "segment", "metadata", "OBJECT_NAME",
   "/OBJECT_NAME", "OBJECT_ID", "/OBJECT_ID", "CENTER_NAME", "/CENTER_NAME", "REF_FRAME",
   "/REF_FRAME", "TIME_SYSTEM", "/TIME_SYSTEM", "MEAN_ELEMENT_THEORY", "/MEAN_ELEMENT_THEORY", "/metadata",
   "data", "meanElements", "EPOCH", "/EPOCH", "MEAN_MOTION", "/MEAN_MOTION",
   "ECCENTRICITY", "/ECCENTRICITY", "INCLINATION", "/INCLINATION", "RA_OF_ASC_NODE", "/RA_OF_ASC_NODE",
   "ARG_OF_PERICENTER", "/ARG_OF_PERICENTER", "MEAN_ANOMALY", "/MEAN_ANOMALY", "/meanElements", "tleParameters",
   "EPHEMERIS_TYPE", "/EPHEMERIS_TYPE", "CLASSIFICATION_TYPE", "/CLASSIFICATION_TYPE", "NORAD_CAT_ID", "/NORAD_CAT_ID",
   "ELEMENT_SET_NO", "/ELEMENT_SET_NO", "REV_AT_EPOCH", "/REV_AT_EPOCH", "BSTAR", "/BSTAR",
   "MEAN_MOTION_DOT", "/MEAN_MOTION_DOT", "MEAN_MOTION_DDOT", "/MEAN_MOTION_DDOT", "/tleParameters", "/data",
   "/segment", "/body", "/omm"]

theorem pieces_names (o : Omm T) (e : Str) : (pieces o e).map Prod.fst = pieceNames.map String.toList := rfl

theorem pieces_render (o : Omm T) (e : Str) : unlines (xmlLines o e) = render (pieces o e) := by
  simp [xmlLines, pieces, render, el, unlines]

theorem clean_no_angle {s : Str} (h : Clean s) : '<' ∉ s := by
  intro hc
  exact (h _ hc).2 rfl

theorem pieces_ok (o : Omm T) (c : Civil) : ∀ p ∈ pieces o (stamp c), PieceOk p := by
  have cs := clean_no_angle (clean_stamp c)
  have cf : ∀ p v, '<' ∉ Sp3.fmtF64 p v := fun p v => clean_no_angle (clean_fmt p v)
  have ce : ∀ v, '<' ∉ sci v := fun v => clean_no_angle (clean_sci v)
  have cn : ∀ v, '<' ∉ natStr v := fun v => clean_no_angle (clean_nat v)
  have cc := clean_no_angle (clean_class o.cls)
  have k : ∀ {t : String} {v : Str}, ('<' ∉ t.toList ∧ '>' ∉ t.toList) → '<' ∉ v → PieceOk (t.toList, v) :=
    fun a b => ⟨a.1, a.2, b⟩
  unfold pieces
  simp only [List.forall_mem_cons, List.not_mem_nil, false_imp_iff, implies_true, and_true]
  refine ⟨?_, ?_, ?_, ?_, ?_, ?_, ?_, ?_, ?_, ?_, ?_, ?_, ?_, ?_, ?_, ?_, ?_, ?_, ?_, ?_, ?_, ?_, ?_, ?_, ?_, ?_, ?_, ?_, ?_, ?_, ?_, ?_, ?_, ?_, ?_, ?_, ?_, ?_, ?_, ?_, ?_, ?_, ?_, ?_, ?_, ?_, ?_, ?_, ?_, ?_, ?_, ?_, ?_, ?_, ?_, ?_, ?_⟩
  all_goals first
    | exact k (by decide) (by decide)
    | exact k (by decide) cs
    | exact k (by decide) cc
    | exact k (by decide) (cf _ _)
    | exact k (by decide) (ce _)
    | exact k (by decide) (cn _)
    | exact k (by decide) (escape_no_angle _)

theorem xml_table {o : Omm T} {c : Civil} (hn : Tight o.name) (hi : Tight o.ident) :
    Table (xmlMap (unlines (xmlLines o (stamp c)))) o (escape o.name) (escape o.ident) (stamp c) := by
  have cs := clean_carried (clean_stamp c)
  have cf : ∀ p v, Carried (Sp3.fmtF64 p v) := fun p v => clean_carried (clean_fmt p v)
  have ce : ∀ v, Carried (sci v) := fun v => clean_carried (clean_sci v)
  have cn : ∀ v, Carried (natStr v) := fun v => clean_carried (clean_nat v)
  have st : Tight "SGP4".toList := tight_of_all (by decide)
  have go : ∀ {tag : String} {v : Str} (k : Nat), tag.toList ∈ tags.map String.toList → '>' ∉ tag.toList →
      (pieces o (stamp c))[k]? = some (tag.toList, v) → (pieces o (stamp c))[k + 1]? = some ('/' :: tag.toList, ['\n']) →
      tag.toList ∉ ((pieces o (stamp c)).take k).map Prod.fst → Tight v →
      xmlMap (unlines (xmlLines o (stamp c))) tag.toList = some v := by
    intro tag v k h0 h1 h2 h3 h4 h5
    unfold xmlMap
    rw [if_pos h0, pieces_render]
    exact extract_render h1 (pieces_ok o c) h2 h3 h4 h5
  have nm : ∀ k, ((pieces o (stamp c)).take k).map Prod.fst = (pieceNames.map String.toList).take k :=
    fun k => by rw [List.map_take, pieces_names]
  refine ⟨go (tag := "MEAN_ELEMENT_THEORY") 15 (by decide) (by decide) rfl rfl (by rw [nm]; decide) st,
    go (tag := "OBJECT_NAME") 5 (by decide) (by decide) rfl rfl (by rw [nm]; decide) (escape_tight hn),
    go (tag := "OBJECT_ID") 7 (by decide) (by decide) rfl rfl (by rw [nm]; decide) (escape_tight hi),
    go (tag := "EPOCH") 20 (by decide) (by decide) rfl rfl (by rw [nm]; decide) cs.1,
    go (tag := "CLASSIFICATION_TYPE") 38 (by decide) (by decide) rfl rfl (by rw [nm]; decide) (clean_carried (clean_class _)).1,
    go (tag := "NORAD_CAT_ID") 40 (by decide) (by decide) rfl rfl (by rw [nm]; decide) (cn _).1,
    go (tag := "MEAN_MOTION") 22 (by decide) (by decide) rfl rfl (by rw [nm]; decide) (cf _ _).1,
    go (tag := "ECCENTRICITY") 24 (by decide) (by decide) rfl rfl (by rw [nm]; decide) (cf _ _).1,
    go (tag := "INCLINATION") 26 (by decide) (by decide) rfl rfl (by rw [nm]; decide) (cf _ _).1,
    go (tag := "RA_OF_ASC_NODE") 28 (by decide) (by decide) rfl rfl (by rw [nm]; decide) (cf _ _).1,
    go (tag := "ARG_OF_PERICENTER") 30 (by decide) (by decide) rfl rfl (by rw [nm]; decide) (cf _ _).1,
    go (tag := "MEAN_ANOMALY") 32 (by decide) (by decide) rfl rfl (by rw [nm]; decide) (cf _ _).1,
    go (tag := "EPHEMERIS_TYPE") 36 (by decide) (by decide) rfl rfl (by rw [nm]; decide) (cn _).1,
    go (tag := "ELEMENT_SET_NO") 42 (by decide) (by decide) rfl rfl (by rw [nm]; decide) (cn _).1,
    go (tag := "REV_AT_EPOCH") 44 (by decide) (by decide) rfl rfl (by rw [nm]; decide) (cn _).1,
    go (tag := "BSTAR") 46 (by decide) (by decide) rfl rfl (by rw [nm]; decide) (ce _).1,
    go (tag := "MEAN_MOTION_DOT") 48 (by decide) (by decide) rfl rfl (by rw [nm]; decide) (ce _).1,
    go (tag := "MEAN_MOTION_DDOT") 50 (by decide) (by decide) rfl rfl (by rw [nm]; decide) (ce _).1⟩

theorem writeXml_ok {env : Env T} {o : Omm T} {c : Civil} (h : env.civil o.epoch = some c) :
    writeXml env o = .ok (unlines (xmlLines o (stamp c))) := by
  unfold writeXml formatEpoch
  rw [h]
  rfl

/-- Writing a message as XML and reading the text gives the message back, for catalogue numbers below 100000; the names may
contain any characters, reserved ones included, as long as they do not begin or end with a blank. -/
theorem xml_round_trip {env : Env T} {o : Omm T} {c c' : Civil} {t : T} (hc : env.civil o.epoch = some c)
    (hp : env.parse (stamp c) = some c') (ht : env.make c' = some t) (hn : Tight o.name) (hi : Tight o.ident)
    (hr : InRange o) (hs : o.norad < 100000) :
    ∃ text r, writeXml env o = .ok text ∧ readXml env text = .ok r ∧ r.epoch = t ∧ Same o r :=
  ⟨_, printed o t, writeXml_ok hc,
    build_table (xml_table hn hi) (unescape_escape _) (unescape_escape _) (stamp_reads hp ht) hr hs, rfl, printed_same o t⟩

/-- Values with no more digits than are written survive exactly. -/
theorem xml_exact {env : Env T} {o : Omm T} {c c' : Civil} (hc : env.civil o.epoch = some c)
    (hp : env.parse (stamp c) = some c') (ht : env.make c' = some o.epoch) (hn : Tight o.name) (hi : Tight o.ident)
    (hr : InRange o) (hs : o.norad < 100000) (hd : Coarse o) :
    ∃ text, writeXml env o = .ok text ∧ readXml env text = .ok o := by
  refine ⟨_, writeXml_ok hc, ?_⟩
  unfold readXml
  rw [build_table (xml_table hn hi) (unescape_escape _) (unescape_escape _) (stamp_reads hp ht) hr hs, printed_exact hd]

/-- A catalogue number of six or more digits is written and not read. -/
theorem xml_large_refused {env : Env T} {o : Omm T} {c c' : Civil} {t : T} (hc : env.civil o.epoch = some c)
    (hp : env.parse (stamp c) = some c') (ht : env.make c' = some t) (hn : Tight o.name) (hi : Tight o.ident)
    (hs : 100000 ≤ o.norad) :
    ∃ text, writeXml env o = .ok text ∧ readXml env text = .err (.satellite .invalidAlpha5) :=
  ⟨_, writeXml_ok hc, build_large (xml_table hn hi) (stamp_reads hp ht) hs⟩

end Verif.Omm.Props
