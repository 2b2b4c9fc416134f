import Verif.Product.Model

/-!
# Products of an orbit determination run
-/

namespace Verif.Product

open Verif.Text
open Verif.Sp3 (fmtF64)
open Verif.Sp3.Props (Good SatOk TimeOk HeaderOk CloseEpoch)

/-! ## Orbits -/

namespace Spec

/-- What an epoch of an SP3 file says of a state: the instant, one position of the satellite, to half a
millimetre. -/
structure Sp3Says {E T : Type} (utc : E → T) (sat : Str) (s : Orbit E) (e : Sp3.Epoch T) : Prop where
  time : e.time = utc s.epoch
  position : ∃ x y z clock, e.positions = [⟨sat, .num x, .num y, .num z, clock⟩]
    ∧ |x - s.x| ≤ 1 / 2 / 10 ^ 6 ∧ |y - s.y| ≤ 1 / 2 / 10 ^ 6 ∧ |z - s.z| ≤ 1 / 2 / 10 ^ 6

/-- What a data line of an orbit ephemeris message says of a state. -/
structure OemSays {E : Type} (jd : E → ℚ) (s : Orbit E) (r : Ccsds.ReadState) : Prop where
  epoch : ∃ d, r.epoch = .num d ∧ |d - jd s.epoch| * 86400 ≤ 1 / 2 / 10 ^ 6
  position : |r.x - s.x| ≤ 1 / 2 / 10 ^ 6 ∧ |r.y - s.y| ≤ 1 / 2 / 10 ^ 6 ∧ |r.z - s.z| ≤ 1 / 2 / 10 ^ 6
  velocity : |r.vx - s.vx| ≤ 1 / 2 / 10 ^ 9 ∧ |r.vy - s.vy| ≤ 1 / 2 / 10 ^ 9
    ∧ |r.vz - s.vz| ≤ 1 / 2 / 10 ^ 9

/-- Columns of a fixed-column line, counted from one. -/
def cols (l : Str) (a b : Nat) : Str := (l.take b).drop (a - 1)

end Spec

theorem header_ok {sat : Str} (hs : '\n' ∉ sat) (n : Nat) : ∀ l ∈ sp3Header sat n, HeaderOk l := by
  have last : ∀ (a b : Str) (c : Char), c ≠ '\r' → (a ++ (b ++ [c])).getLast? ≠ some '\r' := by
    intro a b c hc h
    rw [← List.append_assoc, List.getLast?_concat] at h
    exact hc (Option.some.inj h)
  intro l hl
  simp only [sp3Header, List.mem_cons, List.not_mem_nil, or_false] at hl
  rcases hl with rfl | rfl | rfl | rfl | rfl | rfl | rfl | rfl | rfl | rfl | rfl
  · have hn : '\n' ∉ padLeft ' ' 5 (natStr n) := by
      unfold padLeft
      rw [List.mem_append, not_or]
      refine ⟨fun h => absurd (List.mem_replicate.mp h).2 (by decide), fun h => ?_⟩
      have := Verif.Sp3.Props.natStr_ws n '\n' h
      exact absurd this (by decide)
    refine ⟨?_, ?_, ?_, ?_⟩
    · simp only [List.mem_append, not_or]
      exact ⟨by decide, hn, by decide⟩
    · have e : " ORBIT IGS20 HLM  POD".toList = " ORBIT IGS20 HLM  PO".toList ++ ['D'] := by decide
      rw [e, ← List.append_assoc (padLeft ' ' 5 (natStr n))]
      exact last _ _ _ (by decide)
    · intro h
      exact absurd h (by simp [Verif.Sp3.Props.Star])
    · intro h
      have := congrArg List.head? h
      exact absurd this (by simp)
  · exact ⟨by decide, by decide, by decide, by decide⟩
  · refine ⟨?_, ?_, ?_, ?_⟩
    · simp only [List.mem_append, not_or]
      refine ⟨by decide, ?_, fun h => absurd (List.mem_replicate.mp h).2 (by decide)⟩
      unfold padRight
      rw [List.mem_append, not_or]
      exact ⟨hs, fun h => absurd (List.mem_replicate.mp h).2 (by decide)⟩
    · have e : List.replicate 53 ' ' = List.replicate 52 ' ' ++ [' '] := by decide
      rw [e, ← List.append_assoc (padRight 3 sat)]
      exact last _ _ _ (by decide)
    · intro h
      exact absurd h (by simp [Verif.Sp3.Props.Star])
    · intro h
      have := congrArg List.head? h
      exact absurd this (by simp)
  all_goals exact ⟨by decide, by decide, by decide, by decide⟩

theorem forall2_of_map {α β γ : Type} {f : α → β} {P : β → γ → Prop} {Q : α → γ → Prop}
    (h : ∀ a c, P (f a) c → Q a c) : ∀ {l : List α} {r : List γ},
    List.Forall₂ P (l.map f) r → List.Forall₂ Q l r
  | [], _, hr => by cases hr; exact .nil
  | a :: l, _, hr => by
    cases hr with
    | cons h1 h2 => exact .cons (h _ _ h1) (forall2_of_map h h2)

/-- **C160.** An SP3 product written from states and read back has one epoch per state, in order, at the
same instant, with the position of the state to half a millimetre. -/
theorem sp3_product {E T : Type} {env : Sp3.Env T} (good : Good env) (utc : E → T) {sat : Str}
    (hsat : SatOk sat) {states : List (Orbit E)} (ht : ∀ s ∈ states, TimeOk env (utc s.epoch)) :
    ∃ text r, writeSp3 env utc sat states = .ok text
      ∧ Sp3.readSp3 env ⟨Sp3.rawLines text, false⟩ = .ok r
      ∧ List.Forall₂ (Spec.Sp3Says utc sat) states r.epochs := by
  obtain ⟨text, r, h1, h2, _, h4⟩ := Verif.Sp3.Props.write_read_partial good
    (r := ⟨sp3Header sat states.length, states.map (sp3Epoch utc sat)⟩)
    (header_ok hsat.2.2.2 _)
    (by
      intro e he
      obtain ⟨s, hs, rfl⟩ := List.mem_map.mp he
      exact ht s hs)
    (by
      intro e he p hp
      obtain ⟨s, hs, rfl⟩ := List.mem_map.mp he
      obtain rfl := List.mem_singleton.mp hp
      exact hsat)
  refine ⟨text, r, h1, h2, forall2_of_map (fun s e he => ?_) h4⟩
  refine ⟨he.time, ?_⟩
  obtain ⟨t, ps⟩ := e
  have hp := he.positions
  simp only [sp3Epoch] at hp ⊢
  cases hp with
  | cons hp1 hp2 =>
    cases hp2
    rename_i p
    obtain ⟨x, hx, hx'⟩ := hp1.x
    obtain ⟨y, hy, hy'⟩ := hp1.y
    obtain ⟨z, hz, hz'⟩ := hp1.z
    have hs := hp1.sat
    obtain ⟨psat, px, py, pz, pc⟩ := p
    simp only at hx hy hz hs
    subst hx hy hz hs
    exact ⟨x, y, z, pc, rfl, hx', hy', hz'⟩

theorem plain_word (s : String) (h : ∀ c ∈ s.toList, isWs c = false) (h' : '\n' ∉ s.toList) :
    Verif.Ccsds.Props.NameOk s.toList := ⟨tight_of_all h, h'⟩

/-- **C160.** An OEM product written from states and read back has one segment for the object, with
one state per state, in order, to half a millimetre, a micrometre per second and a microsecond. -/
theorem oem_product {E : Type} (jd : E → ℚ) {id name : Str} (hid : Tight id ∧ '\n' ∉ id)
    (hname : Tight name ∧ '\n' ∉ name) {states : List (Orbit E)} (hne : states ≠ [])
    (ht : ∀ s ∈ states, 1721059 + 1 / 2 ≤ jd s.epoch ∧ jd s.epoch < 700000000000 - 1) :
    ∃ text f m rs, writeOem jd id name states = .ok text ∧ Ccsds.readOem text = .ok f
      ∧ f.segments = [⟨m, rs⟩] ∧ m.objectId = id ∧ m.objectName = name
      ∧ List.Forall₂ (Spec.OemSays jd) states rs := by
  obtain ⟨text, f, rs, h1, h2, _, _, h5, h6⟩ := Verif.Ccsds.Props.write_read (m := oemMeta id name)
    (states := states.map (oemState jd)) (by simpa using hne)
    ⟨hid, hname, plain_word "EME2000" (by decide) (by decide), plain_word "TT" (by decide) (by decide),
      plain_word "EARTH" (by decide) (by decide)⟩
    (by
      intro s hs
      obtain ⟨o, ho, rfl⟩ := List.mem_map.mp hs
      exact ht o ho)
  refine ⟨text, f, oemMeta id name, rs, h1, h2, h5, rfl, rfl, forall2_of_map (fun s r h => ?_) h6⟩
  exact ⟨h.epoch, ⟨h.x, h.y, h.z⟩, ⟨h.vx, h.vy, h.vz⟩⟩

/-- **C160 (finding).** Writing an empty series to a file reports an error, and the product that was in
the file before is gone. -/
theorem refused_product_erases_file {E P : Type} (jd : E → ℚ) (id name : Str) (old : Option Str) :
    oemFile (P := P) jd id name old [] = (.err .noStates, []) := rfl

/-- **C161 (finding).** The header of the SP3 product does not depend on the states but for their number:
every product is declared to begin on 2024 January 1 at 0h, at an interval of 900 s, in GPS time and in
the terrestrial frame IGS20, though the epochs are of UTC and the positions of GCRS. The GPS week, in
columns 4 to 7, is shifted by one column: 229 instead of 2295. -/
theorem sp3_header_fixed (sat : Str) (n : Nat) :
    ∃ l1 l2 l3 l4 l5 rest, sp3Header sat n = l1 :: l2 :: l3 :: l4 :: l5 :: rest
      ∧ Spec.cols l1 4 31 = "2024  1  1  0  0  0.00000000".toList
      ∧ Spec.cols l2 4 7 = " 229".toList ∧ Spec.cols l2 25 38 = "   900.0000000".toList
      ∧ Spec.cols l5 10 12 = "GPS".toList := by
  refine ⟨_, _, _, _, _, _, rfl, ?_, by decide, by decide, by decide⟩
  unfold Spec.cols
  rw [List.take_append_of_le_length (by decide)]
  decide

/-- **C161 (finding).** So two series that differ in every epoch have the same header. -/
theorem sp3_header_same {E T : Type} (env : Sp3.Env T) (utc : E → T) (sat : Str)
    {a b : List (Orbit E)} (hl : a.length = b.length) {ta tb : Str}
    (ha : writeSp3 env utc sat a = .ok ta) (hb : writeSp3 env utc sat b = .ok tb) :
    ∃ h ra rb, ta = h ++ ra ∧ tb = h ++ rb
      ∧ h = unlines (sp3Header sat a.length) := by
  have un : ∀ x y : List Str, unlines (x ++ y) = unlines x ++ unlines y := by
    intro x y
    induction x with
    | nil => rfl
    | cons l x ih => rw [List.cons_append, unlines_cons, unlines_cons, ih]; simp
  have key : ∀ {s : List (Orbit E)} {t : Str}, writeSp3 env utc sat s = .ok t →
      ∃ r, t = unlines (sp3Header sat s.length) ++ r := by
    intro s t h
    unfold writeSp3 Sp3.writeSp3 at h
    simp only at h
    cases he : Sp3.epochLines env (s.map (sp3Epoch utc sat)) with
    | ok ls =>
      rw [he] at h
      simp only [Res.bind, Res.ok.injEq] at h
      exact ⟨_, by rw [← h, un]⟩
    | err e => rw [he] at h; simp [Res.bind] at h
    | panic => rw [he] at h; simp [Res.bind] at h
  obtain ⟨ra, hra⟩ := key ha
  obtain ⟨rb, hrb⟩ := key hb
  exact ⟨_, ra, rb, hra, by rw [hl]; exact hrb, rfl⟩

/-- **C161 (finding).** The format has the number of epochs in columns 33 to 39. For fewer than a thousand
epochs these columns are blank in the product. -/
theorem sp3_count_column {sat : Str} {n : Nat} (h : n < 1000) :
    ∃ l1 rest, sp3Header sat n = l1 :: rest ∧ Spec.cols l1 33 39 = "       ".toList := by
  refine ⟨_, _, rfl, ?_⟩
  have hl : (natStr n).length ≤ 3 := natStr_length_le 2 n (by omega)
  obtain ⟨t, ht⟩ : ∃ t, padLeft ' ' 5 (natStr n) = ' ' :: ' ' :: t := by
    unfold padLeft
    obtain ⟨k, hk⟩ : ∃ k, 5 - (natStr n).length = k + 2 := ⟨5 - (natStr n).length - 2, by omega⟩
    rw [hk]
    exact ⟨List.replicate k ' ' ++ natStr n, by simp [List.replicate_succ]⟩
  rw [ht]
  unfold Spec.cols
  rfl

/-! ## Residuals -/

namespace Spec

/-- The number in the text is the number given, to half a unit of the last decimal. -/
def Near (p : Nat) (text : Str) : F64 → Prop
  | .num q => ∃ q', parseFloat text = some (.num q') ∧ |q' - q| ≤ 1 / 2 / 10 ^ p
  | v => parseFloat text = some v

/-- A row of six fields that says what the record says. -/
structure RowSays (line : Str) (r : Residual) : Prop where
  fields : ∃ a d e, splitChar ',' line = [a, r.obsType, r.satellite, d, e, if r.rejected then "true".toList else "false".toList]
    ∧ Near 9 a r.epoch ∧ Near 6 d r.residual ∧ Near 6 e r.sigma

/-- A name that needs no quoting. -/
def Plain (s : Str) : Prop := ',' ∉ s ∧ '\n' ∉ s

end Spec

theorem fmtF64_near (p : Nat) (v : F64) : Spec.Near p (fmtF64 p v) v := by
  cases v with
  | num q => exact ⟨_, parseFloat_fmtFixed p q, fixedValue_close p q⟩
  | inf b =>
    cases b
    · exact (by decide : parseFloat "inf".toList = some (.inf false))
    · exact (by decide : parseFloat "-inf".toList = some (.inf true))
  | nan => exact (by decide : parseFloat "NaN".toList = some .nan)

theorem fmtF64_chars (p : Nat) (v : F64) : ',' ∉ fmtF64 p v ∧ '\n' ∉ fmtF64 p v := by
  cases v with
  | num q =>
    refine ⟨fun h => ?_, fun h => absurd (fmtFixed_chars p q _ h).2 (by decide)⟩
    show False
    unfold fmtF64 fmtFixed at h
    rcases List.mem_append.mp h with h | h
    · split at h
      · exact absurd (List.mem_singleton.mp h) (by decide)
      · simp at h
    · rcases fixedStr_chars _ _ _ h with h | h <;> exact absurd h (by decide)
  | inf b =>
    cases b
    · exact (by decide : ',' ∉ "inf".toList ∧ '\n' ∉ "inf".toList)
    · exact (by decide : ',' ∉ "-inf".toList ∧ '\n' ∉ "-inf".toList)
  | nan => exact (by decide : ',' ∉ "NaN".toList ∧ '\n' ∉ "NaN".toList)

theorem row_says {r : Residual} (h1 : ',' ∉ r.obsType) (h2 : ',' ∉ r.satellite) :
    Spec.RowSays (csvRow r) r := by
  refine ⟨fmtF64 9 r.epoch, fmtF64 6 r.residual, fmtF64 6 r.sigma, ?_, fmtF64_near _ _, fmtF64_near _ _,
    fmtF64_near _ _⟩
  unfold csvRow
  rw [splitChar_append (fmtF64_chars _ _).1, splitChar_append h1, splitChar_append h2,
    splitChar_append (fmtF64_chars _ _).1, splitChar_append (fmtF64_chars _ _).1, splitChar_single]
  · rfl
  · unfold boolStr
    split <;> decide

theorem row_lineOk {r : Residual} (h1 : '\n' ∉ r.obsType) (h2 : '\n' ∉ r.satellite) : LineOk (csvRow r) := by
  constructor
  · unfold csvRow
    simp only [List.mem_append, List.mem_cons, not_or]
    refine ⟨(fmtF64_chars _ _).2, by decide, h1, by decide, h2, by decide, (fmtF64_chars _ _).2, by decide,
      (fmtF64_chars _ _).2, by decide, ?_⟩
    unfold boolStr
    split <;> decide
  · have : ∃ t, csvRow r = t ++ ['e'] := by
      cases hr : r.rejected
      · exact ⟨fmtF64 9 r.epoch ++ ',' :: (r.obsType ++ ',' :: (r.satellite ++ ',' :: (fmtF64 6 r.residual ++ ',' ::
          (fmtF64 6 r.sigma ++ ',' :: "fals".toList)))), by simp [csvRow, boolStr, hr]⟩
      · exact ⟨fmtF64 9 r.epoch ++ ',' :: (r.obsType ++ ',' :: (r.satellite ++ ',' :: (fmtF64 6 r.residual ++ ',' ::
          (fmtF64 6 r.sigma ++ ',' :: "tru".toList)))), by simp [csvRow, boolStr, hr]⟩
    obtain ⟨t, ht⟩ := this
    rw [ht, List.getLast?_concat]
    decide

theorem csv_unlines (rs : List Residual) : csvFile rs = unlines (csvHeader :: rs.map csvRow) := by
  have h : ∀ (rs : List Residual) (out : Str), rs.foldl csvWrite out = out ++ unlines (rs.map csvRow) := by
    intro rs
    induction rs with
    | nil => intro out; simp [unlines]
    | cons r rs ih =>
      intro out
      rw [List.foldl_cons, ih, List.map_cons, unlines_cons]
      simp [csvWrite]
  unfold csvFile
  rw [h, unlines_cons]
  simp [csvNew]

/-- **C162.** A table of residuals whose names hold no comma and no line end is read back, line by line
and field by field: one header, one row per record, in order. -/
theorem csv_rows {rs : List Residual} (h : ∀ r ∈ rs, Spec.Plain r.obsType ∧ Spec.Plain r.satellite) :
    ∃ rows, lines (csvFile rs) = "epoch_jd_tt,obs_type,satellite,residual_m,sigma_m,rejected".toList :: rows
      ∧ List.Forall₂ Spec.RowSays rows rs := by
  refine ⟨rs.map csvRow, ?_, ?_⟩
  · rw [csv_unlines, lines_unlines]
    · rfl
    · intro l hl
      rcases List.mem_cons.mp hl with rfl | hl
      · exact ⟨by decide, by decide⟩
      · obtain ⟨r, hr, rfl⟩ := List.mem_map.mp hl
        exact row_lineOk (h r hr).1.2 (h r hr).2.2
  · induction rs with
    | nil => exact .nil
    | cons r rs ih =>
      refine .cons (row_says (h r (by simp)).1.1 (h r (by simp)).2.1) (ih (fun x hx => h x (by simp [hx])))

/-- **C162 (finding).** Names are not quoted: a record with a comma in a name has more than six fields,
and a table of one record can be the table of two others. -/
theorem csv_unquoted :
    (splitChar ',' (csvRow ⟨.num 0, "range,2".toList, "G01".toList, .num 1, .num 1, false⟩)).length = 7
    ∧ csvFile [⟨.num 0, "C1C".toList,
        "G01,1.000000,1.000000,false\n0.000000000,C1C,G02".toList, .num 1, .num 1, false⟩]
      = csvFile [⟨.num 0, "C1C".toList, "G01".toList, .num 1, .num 1, false⟩,
          ⟨.num 0, "C1C".toList, "G02".toList, .num 1, .num 1, false⟩] := by
  decide +kernel

namespace Spec

/-- Column of the given name. -/
def doubles (cs : List Column) (name : String) : Option (List F64) :=
  cs.findSome? fun c => match c with
    | .doubles n v => if n = name then some v else none
    | _ => none
def texts (cs : List Column) (name : String) : Option (List Str) :=
  cs.findSome? fun c => match c with
    | .texts n v => if n = name then some v else none
    | _ => none
def flags (cs : List Column) (name : String) : Option (List Bool) :=
  cs.findSome? fun c => match c with
    | .flags n v => if n = name then some v else none
    | _ => none

/-- The `i`-th row of a table of named columns. -/
def row (cs : List Column) (i : Nat) : Option Residual := do
  let epoch ← (← doubles cs "epoch_jd_tt")[i]?
  let obs ← (← texts cs "obs_type")[i]?
  let sat ← (← texts cs "satellite")[i]?
  let res ← (← doubles cs "residual_m")[i]?
  let sig ← (← doubles cs "sigma_m")[i]?
  let rej ← (← flags cs "rejected")[i]?
  some ⟨epoch, obs, sat, res, sig, rej⟩

end Spec

/-- **C162.** Row `i` of the columnar table is record `i`, exactly, for every record and no further. -/
theorem parquet_rows (rs : List Residual) (i : Nat) : Spec.row (columns rs) i = rs[i]? := by
  have h1 : Spec.doubles (columns rs) "epoch_jd_tt" = some (rs.map (·.epoch)) := by
    simp [Spec.doubles, columns]
  have h2 : Spec.texts (columns rs) "obs_type" = some (rs.map (·.obsType)) := by
    simp [Spec.texts, columns]
  have h3 : Spec.texts (columns rs) "satellite" = some (rs.map (·.satellite)) := by
    simp [Spec.texts, columns]
  have h4 : Spec.doubles (columns rs) "residual_m" = some (rs.map (·.residual)) := by
    simp [Spec.doubles, columns]
  have h5 : Spec.doubles (columns rs) "sigma_m" = some (rs.map (·.sigma)) := by
    simp [Spec.doubles, columns]
  have h6 : Spec.flags (columns rs) "rejected" = some (rs.map (·.rejected)) := by
    simp [Spec.flags, columns]
  unfold Spec.row
  simp only [h1, h2, h3, h4, h5, h6, Option.bind_eq_bind, Option.bind_some, List.getElem?_map]
  cases rs[i]? <;> rfl

/-! ## Run manifests -/

variable {K : Type} [LinearOrder K]

theorem sortByKey_perm (l : List (Dataset K)) : (sortByKey l).Perm l := List.mergeSort_perm l _

theorem sortByKey_sorted (l : List (Dataset K)) :
    (sortByKey l).Pairwise (fun a b => a.key ≤ b.key) := by
  have h := List.pairwise_mergeSort (le := fun a b : Dataset K => decide (a.key ≤ b.key))
    (fun a b c h1 h2 => by simp at h1 h2 ⊢; exact le_trans h1 h2)
    (fun a b => by simp; exact le_total _ _) l
  exact h.imp (fun h => by simpa using h)

/-- **C163.** The canonical manifest lists the same datasets, ordered by kind and path, and keeps every
other field. -/
theorem canonical (m : Manifest K) :
    (canonicalize m).inputs.Perm m.inputs ∧ (canonicalize m).outputs.Perm m.outputs
      ∧ (canonicalize m).inputs.Pairwise (fun a b => a.key ≤ b.key)
      ∧ (canonicalize m).outputs.Pairwise (fun a b => a.key ≤ b.key)
      ∧ (canonicalize m).runId = m.runId ∧ (canonicalize m).toolVersion = m.toolVersion
      ∧ (canonicalize m).configSha256 = m.configSha256
      ∧ (canonicalize m).startedAt = m.startedAt ∧ (canonicalize m).finishedAt = m.finishedAt :=
  ⟨sortByKey_perm _, sortByKey_perm _, sortByKey_sorted _, sortByKey_sorted _, rfl, rfl, rfl, rfl, rfl⟩

theorem sortByKey_of_sorted {l : List (Dataset K)} (h : l.Pairwise (fun a b => a.key ≤ b.key)) :
    sortByKey l = l :=
  List.mergeSort_of_pairwise (h.imp (fun h => by simpa using h))

/-- **C163.** It is canonical once and for all. -/
theorem canonical_idempotent (m : Manifest K) : canonicalize (canonicalize m) = canonicalize m := by
  have h1 := sortByKey_of_sorted (sortByKey_sorted m.inputs)
  have h2 := sortByKey_of_sorted (sortByKey_sorted m.outputs)
  simp only [canonicalize]
  rw [h1, h2]

theorem sorted_unique {l l' : List (Dataset K)} (hp : l.Perm l') (hn : (l.map (·.key)).Nodup)
    (h : l.Pairwise (fun a b => a.key ≤ b.key)) (h' : l'.Pairwise (fun a b => a.key ≤ b.key)) : l = l' := by
  refine List.Perm.eq_of_pairwise (le := fun a b => a.key ≤ b.key) ?_ h h' hp
  intro a b ha hb hab hba
  have hk : a.key = b.key := le_antisymm hab hba
  have hb' : b ∈ l := hp.mem_iff.mpr hb
  exact List.inj_on_of_nodup_map hn ha hb' hk

/-- **C163.** Whatever the order in which the datasets were collected, the written manifest is the same,
as long as no two datasets of a list have the same kind and path. -/
theorem json_order_free (json : Manifest K → Str) {a b : Manifest K} (hi : a.inputs.Perm b.inputs)
    (ho : a.outputs.Perm b.outputs) (hni : (a.inputs.map (·.key)).Nodup) (hno : (a.outputs.map (·.key)).Nodup)
    (hr : ({ a with inputs := [], outputs := [] } : Manifest K) = { b with inputs := [], outputs := [] }) :
    toJson json a = toJson json b := by
  have s : ∀ {l l' : List (Dataset K)}, l.Perm l' → (l.map (·.key)).Nodup → sortByKey l = sortByKey l' := by
    intro l l' hp hn
    refine sorted_unique (((sortByKey_perm l).trans hp).trans (sortByKey_perm l').symm) ?_
      (sortByKey_sorted l) (sortByKey_sorted l')
    exact ((sortByKey_perm l).map _).nodup_iff.mpr hn
  unfold toJson canonicalize
  rw [s hi hni, s ho hno]
  obtain ⟨a1, a2, a3, a4, a5, a6, a7⟩ := a
  obtain ⟨b1, b2, b3, b4, b5, b6, b7⟩ := b
  simp only [Manifest.mk.injEq, true_and] at hr
  obtain ⟨rfl, rfl, rfl, rfl, rfl⟩ := hr
  rfl

/-- **C163 (finding).** Two datasets of one kind and path keep the order they came in, so the same
datasets can be written in two ways. -/
theorem json_order_kept (k : K) (x y : Str) (hxy : x ≠ y) (m : Manifest K) :
    let a := { m with inputs := [⟨k, 1, x⟩, ⟨k, 1, y⟩] }
    let b := { m with inputs := [⟨k, 1, y⟩, ⟨k, 1, x⟩] }
    a.inputs.Perm b.inputs ∧ canonicalize a ≠ canonicalize b := by
  refine ⟨List.Perm.swap _ _ _, ?_⟩
  intro h
  have h1 : sortByKey [(⟨k, 1, x⟩ : Dataset K), ⟨k, 1, y⟩] = [⟨k, 1, x⟩, ⟨k, 1, y⟩] :=
    sortByKey_of_sorted (by simp)
  have h2 : sortByKey [(⟨k, 1, y⟩ : Dataset K), ⟨k, 1, x⟩] = [⟨k, 1, y⟩, ⟨k, 1, x⟩] :=
    sortByKey_of_sorted (by simp)
  have h3 := congrArg Manifest.inputs h
  simp only [canonicalize, h1, h2] at h3
  injection h3 with h4
  injection h4 with _ _ h5
  exact hxy h5

/-! ## Instances -/

/-- A state written at an instant that chrono can print. -/
example : SatOk "L01".toList ∧ TimeOk Verif.Sp3.Props.plainEnv ⟨2024, 1, 2, 3, 4, 30, 0⟩ :=
  ⟨⟨by unfold isAscii; decide, by decide, tight_of_all (by decide), by decide⟩, ⟨_, rfl, by decide, by decide⟩⟩

example : Spec.Plain "C1C".toList ∧ ((["b", "a"].map (fun p => (⟨p, 1, []⟩ : Dataset String))).map (·.key)).Nodup :=
  ⟨⟨by decide, by decide⟩, by decide⟩

end Verif.Product
