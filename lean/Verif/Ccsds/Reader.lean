import Verif.Ccsds.Epoch

/-
Property C50: reading orbit ephemeris messages.
-/
namespace Verif.Ccsds.Props
open Verif.Text Verif.Ccsds Verif.Calendar

/-! ### Specification: documents -/

/-- A line that carries nothing: empty, or a comment. -/
def Blank (raw : Str) : Prop := trim raw = [] ∨ "COMMENT".toList.isPrefixOf (trim raw) = true

/-- A line `key = value`. -/
def KvLine (raw k v : Str) : Prop :=
  ¬ Blank raw ∧ ∃ a b, trim raw = a ++ '=' :: b ∧ '=' ∉ a ∧ k = trim a ∧ v = trim b

/-- A state line: an epoch and six finite numbers (anything after them is ignored). -/
def DataLine (raw : Str) (st : ReadState) : Prop :=
  ¬ Blank raw ∧ ∃ e x y z vx vy vz rest jd, words (trim raw) = e :: x :: y :: z :: vx :: vy :: vz :: rest ∧
    EpochText e jd ∧ st.epoch = .num jd ∧
    parseFloat x = some (.num st.x) ∧ parseFloat y = some (.num st.y) ∧ parseFloat z = some (.num st.z) ∧
    parseFloat vx = some (.num st.vx) ∧ parseFloat vy = some (.num st.vy) ∧ parseFloat vz = some (.num st.vz)

/-- Lines with their content; `none` for lines without any. -/
def KvLines (ls : List (Str × Option (Str × Str))) : Prop :=
  ∀ l ∈ ls, match l.2 with
    | none => Blank l.1
    | some (k, v) => KvLine l.1 k v

def DataLines (ls : List (Str × Option ReadState)) : Prop :=
  ∀ l ∈ ls, match l.2 with
    | none => Blank l.1
    | some st => DataLine l.1 st

/-- The value assigned last to a key. -/
def lastValue (key : String) (kvs : List (Str × Str)) : Option Str :=
  (kvs.reverse.find? (fun p => decide (p.1 = key.toList))).map Prod.snd

/-- The text of a segment. -/
structure SegText where
  start : Str
  metas : List (Str × Option (Str × Str))
  stop : Str
  datas : List (Str × Option ReadState)

def SegText.lines (g : SegText) : List Str := g.start :: (g.metas.map Prod.fst ++ g.stop :: g.datas.map Prod.fst)

def SegText.kvs (g : SegText) : List (Str × Str) := g.metas.filterMap Prod.snd

/-- A segment text and what it says. -/
structure SegOk (g : SegText) (seg : Segment) : Prop where
  start : trim g.start = "META_START".toList
  metas : KvLines g.metas
  stop : trim g.stop = "META_STOP".toList
  datas : DataLines g.datas
  objectId : lastValue "OBJECT_ID" g.kvs = some seg.info.objectId
  objectName : lastValue "OBJECT_NAME" g.kvs = some seg.info.objectName
  refFrame : lastValue "REF_FRAME" g.kvs = some seg.info.refFrame
  timeSystem : lastValue "TIME_SYSTEM" g.kvs = some seg.info.timeSystem
  centerName : lastValue "CENTER_NAME" g.kvs = some seg.info.centerName
  states : seg.states = g.datas.filterMap Prod.snd

/-- The text of a covariance or manoeuvre block. -/
structure BlockOk (ls : List Str) : Prop where
  parts : ∃ b body e, ls = b :: (body ++ [e]) ∧
    (trim b = "COVARIANCE_START".toList ∧ trim e = "COVARIANCE_STOP".toList ∨ trim b = "MAN_START".toList ∧ trim e = "MAN_STOP".toList) ∧
    ∀ l ∈ body, trim l ≠ "COVARIANCE_STOP".toList ∧ trim l ≠ "MAN_STOP".toList

/-! ### Steps -/

theorem loop_append (n : Nat) (s : St) (a b : List Str) :
    loop n s (a ++ b) = (loop n s a).bind (fun s' => loop (n + a.length) s' b) := by
  induction a generalizing n s with
  | nil => rfl
  | cons x a ih =>
    rw [List.cons_append]
    have hl : ∀ rest, loop n s (x :: rest) = (step n s x).bind (fun s => loop (n + 1) s rest) := fun _ => rfl
    rw [hl, hl]
    cases hx : step n s x with
    | ok s1 =>
      simp only [Res.bind]
      rw [ih, List.length_cons]
      congr 1
      funext s'
      rw [show n + 1 + a.length = n + (a.length + 1) by omega]
    | err e => rfl
    | panic => rfl

theorem step_blank {raw : Str} (h : Blank raw) (n : Nat) (s : St) : step n s raw = .ok s := by
  unfold step
  exact if_pos h

theorem step_line {raw : Str} (h : ¬ Blank raw) (n : Nat) (s : St) : step n s raw = stepLine n s (trim raw) := by
  unfold step
  exact if_neg h

theorem kv_split {raw k v : Str} (h : KvLine raw k v) (n : Nat) : splitKv (trim raw) n = .ok (k, v) := by
  obtain ⟨_, a, b, ht, ha, rfl, rfl⟩ := h
  unfold splitKv
  rw [ht, find1_append ha]

theorem kv_not_word {raw k v : Str} (h : KvLine raw k v) {w : Str} (hw : '=' ∉ w) : trim raw ≠ w := by
  obtain ⟨_, a, b, ht, _⟩ := h
  rintro rfl
  exact hw (by rw [ht]; simp)

/-- The header. -/
theorem header_loop {hs : List (Str × Option (Str × Str))} (h : KvLines hs) (n : Nat) (s : St) (hm : s.mode = .header) :
    loop n s (hs.map Prod.fst) = .ok ((hs.filterMap Prod.snd).foldl (fun s kv => headerField s kv.1 kv.2) s) := by
  induction hs generalizing n s with
  | nil => rfl
  | cons x hs ih =>
    obtain ⟨raw, c⟩ := x
    have hx := h (raw, c) List.mem_cons_self
    have hrest : KvLines hs := fun l hl => h l (List.mem_cons_of_mem _ hl)
    rw [List.map_cons, loop]
    cases c with
    | none =>
      rw [step_blank hx]
      exact ih hrest _ s hm
    | some kv =>
      obtain ⟨k, v⟩ := kv
      simp only at hx
      rw [step_line hx.1]
      unfold stepLine
      rw [hm]
      dsimp only
      rw [if_neg (kv_not_word hx (by decide)), kv_split hx]
      simp only [Res.bind]
      have hmode : (headerField s k v).mode = .header := by
        unfold headerField
        split_ifs <;> exact hm
      rw [ih hrest _ _ hmode]
      rfl

/-- The metadata. -/
theorem meta_loop {ms : List (Str × Option (Str × Str))} (h : KvLines ms) (n : Nat) (s : St) (mb : MetaBuilder)
    (hm : s.mode = .inMeta mb) :
    loop n s (ms.map Prod.fst) =
      .ok { s with mode := .inMeta ((ms.filterMap Prod.snd).foldl (fun mb kv => metaField mb kv.1 kv.2) mb) } := by
  induction ms generalizing n s mb with
  | nil => rw [List.filterMap_nil, List.foldl_nil, ← hm]; rfl
  | cons x ms ih =>
    obtain ⟨raw, c⟩ := x
    have hx := h (raw, c) List.mem_cons_self
    have hrest : KvLines ms := fun l hl => h l (List.mem_cons_of_mem _ hl)
    rw [List.map_cons, loop]
    cases c with
    | none =>
      rw [step_blank hx]
      exact ih hrest _ s mb hm
    | some kv =>
      obtain ⟨k, v⟩ := kv
      simp only at hx
      rw [step_line hx.1]
      unfold stepLine
      rw [hm]
      dsimp only
      rw [if_neg (kv_not_word hx (by decide)), kv_split hx]
      simp only [Res.bind]
      rw [ih hrest _ _ (metaField mb k v) rfl]
      rfl

theorem data_parse {raw : Str} {st : ReadState} (h : DataLine raw st) (n : Nat) : parseDataLine (trim raw) n = .ok st := by
  obtain ⟨_, e, x, y, z, vx, vy, vz, rest, jd, hw, he, hep, h1, h2, h3, h4, h5, h6⟩ := h
  unfold parseDataLine
  rw [hw]
  simp only [nextNum, h1, h2, h3, h4, h5, h6, Res.bind, iso_read he]
  rw [← hep]

theorem data_not_word {raw : Str} {st : ReadState} (h : DataLine raw st) {w : Str} (hw : words w = [w]) : trim raw ≠ w := by
  obtain ⟨_, e, x, y, z, vx, vy, vz, rest, jd, hww, _⟩ := h
  rintro rfl
  rw [hww] at hw
  simp at hw

/-- The states. -/
theorem data_loop {ds : List (Str × Option ReadState)} (h : DataLines ds) (n : Nat) (s : St) (seg : Segment) (hm : s.mode = .data seg) :
    loop n s (ds.map Prod.fst) = .ok { s with mode := .data ⟨seg.info, seg.states ++ ds.filterMap Prod.snd⟩ } := by
  induction ds generalizing n s seg with
  | nil => rw [List.filterMap_nil, List.append_nil, ← hm]; rfl
  | cons x ds ih =>
    obtain ⟨raw, c⟩ := x
    have hx := h (raw, c) List.mem_cons_self
    have hrest : DataLines ds := fun l hl => h l (List.mem_cons_of_mem _ hl)
    rw [List.map_cons, loop]
    cases c with
    | none =>
      rw [step_blank hx]
      exact ih hrest _ s seg hm
    | some st =>
      simp only at hx
      rw [step_line hx.1]
      unfold stepLine
      rw [hm]
      dsimp only
      rw [if_neg (data_not_word hx (by decide)), if_neg (by
        rintro (hc | hc)
        · exact data_not_word hx (by decide) hc
        · exact data_not_word hx (by decide) hc), data_parse hx]
      simp only [Res.bind]
      rw [ih hrest _ _ ⟨seg.info, seg.states ++ [st]⟩ rfl]
      simp only [List.filterMap_cons, List.append_assoc, List.singleton_append]

/-- What a sequence of assignments leaves in a field. -/
theorem fold_field {σ : Type} (f : σ → Str → Str → σ) (proj : σ → Option Str) (key : String)
    (hf : ∀ s k v, proj (f s k v) = if k = key.toList then some v else proj s) (kvs : List (Str × Str)) (s : σ) :
    proj (kvs.foldl (fun s kv => f s kv.1 kv.2) s) = (lastValue key kvs).or (proj s) := by
  induction kvs using List.reverseRecOn with
  | nil => simp [lastValue]
  | append_singleton kvs kv ih =>
    rw [List.foldl_append, List.foldl_cons, List.foldl_nil, hf]
    unfold lastValue at ih ⊢
    rw [List.reverse_append, List.reverse_singleton, List.singleton_append, List.find?_cons]
    by_cases hk : kv.1 = key.toList
    · simp [hk]
    · simp only [hk, decide_false, if_false]
      exact ih

theorem header_version (kvs : List (Str × Str)) (s : St) :
    (kvs.foldl (fun s kv => headerField s kv.1 kv.2) s).version = (lastValue "CCSDS_OEM_VERS" kvs).or s.version ∧
    (kvs.foldl (fun s kv => headerField s kv.1 kv.2) s).creation = (lastValue "CREATION_DATE" kvs).or s.creation ∧
    (kvs.foldl (fun s kv => headerField s kv.1 kv.2) s).originator = (lastValue "ORIGINATOR" kvs).or s.originator := by
  refine ⟨?_, ?_, ?_⟩
  · apply fold_field headerField St.version
    intro s k v; unfold headerField
    split_ifs with h1 h2 h3 <;> first | rfl | simp_all
  · apply fold_field headerField St.creation
    intro s k v; unfold headerField
    split_ifs with h1 h2 h3 <;> first | rfl | (subst h1; simp_all; done) | simp_all
  · apply fold_field headerField St.originator
    intro s k v; unfold headerField
    split_ifs with h1 h2 h3 <;> first | rfl | (subst h1; simp_all; done) | simp_all

theorem header_keeps (kvs : List (Str × Str)) (s : St) :
    (kvs.foldl (fun s kv => headerField s kv.1 kv.2) s).mode = s.mode ∧
    (kvs.foldl (fun s kv => headerField s kv.1 kv.2) s).segments = s.segments := by
  induction kvs generalizing s with
  | nil => exact ⟨rfl, rfl⟩
  | cons kv kvs ih =>
    rw [List.foldl_cons]
    obtain ⟨h1, h2⟩ := ih (headerField s kv.1 kv.2)
    rw [h1, h2]
    unfold headerField
    split_ifs <;> exact ⟨rfl, rfl⟩

theorem meta_fields (kvs : List (Str × Str)) :
    let mb := kvs.foldl (fun mb kv => metaField mb kv.1 kv.2) ({} : MetaBuilder)
    mb.objectId = lastValue "OBJECT_ID" kvs ∧ mb.objectName = lastValue "OBJECT_NAME" kvs ∧
    mb.refFrame = lastValue "REF_FRAME" kvs ∧ mb.timeSystem = lastValue "TIME_SYSTEM" kvs ∧
    mb.centerName = lastValue "CENTER_NAME" kvs := by
  intro mb
  have n1 := fold_field metaField MetaBuilder.objectId "OBJECT_ID" (by
    intro s k v; unfold metaField
    split_ifs with h1 h2 h3 h4 h5 <;> first | rfl | simp_all) kvs {}
  have n2 := fold_field metaField MetaBuilder.objectName "OBJECT_NAME" (by
    intro s k v; unfold metaField
    split_ifs with h1 h2 h3 h4 h5 <;> first | rfl | (subst h1; simp_all; done) | simp_all) kvs {}
  have n3 := fold_field metaField MetaBuilder.refFrame "REF_FRAME" (by
    intro s k v; unfold metaField
    split_ifs with h1 h2 h3 h4 h5 <;> first | rfl | (subst h1; simp_all; done) | simp_all) kvs {}
  have n4 := fold_field metaField MetaBuilder.timeSystem "TIME_SYSTEM" (by
    intro s k v; unfold metaField
    split_ifs with h1 h2 h3 h4 h5 <;> first | rfl | (subst h1; simp_all; done) | simp_all) kvs {}
  have n5 := fold_field metaField MetaBuilder.centerName "CENTER_NAME" (by
    intro s k v; unfold metaField
    split_ifs with h1 h2 h3 h4 h5 <;> first | rfl | (subst h1; simp_all; done) | simp_all) kvs {}
  simp only [Option.or_none] at n1 n2 n3 n4 n5
  exact ⟨n1, n2, n3, n4, n5⟩

/-- The segments finished when a new one begins. -/
def finished (s : St) : List Segment :=
  match s.mode with
  | .data seg => s.segments ++ [seg]
  | _ => s.segments

theorem not_blank_word {raw w : Str} (h : trim raw = w) (hw : w ≠ []) (hc : "COMMENT".toList.isPrefixOf w = false) : ¬ Blank raw := by
  rintro (hb | hb)
  · exact hw (h ▸ hb)
  · rw [h, hc] at hb; simp at hb

/-- One segment. -/
theorem segment_loop {g : SegText} {seg : Segment} (h : SegOk g seg) (n : Nat) (s : St)
    (hm : s.mode = .header ∨ ∃ old, s.mode = .data old) :
    loop n s g.lines = .ok { s with segments := finished s, mode := .data seg } := by
  unfold SegText.lines
  rw [loop, step_line (not_blank_word h.start (by decide) (by decide)), h.start]
  have hstart : stepLine n s "META_START".toList = .ok { s with segments := finished s, mode := .inMeta {} } := by
    unfold stepLine finished
    rcases hm with hm | ⟨old, hm⟩
    · rw [hm]; dsimp only; rw [if_pos rfl]
    · rw [hm]; dsimp only; rw [if_pos rfl]
  rw [hstart]
  simp only [Res.bind]
  rw [loop_append, meta_loop h.metas _ _ {} rfl]
  simp only [Res.bind]
  rw [loop, step_line (not_blank_word h.stop (by decide) (by decide)), h.stop]
  obtain ⟨m1, m2, m3, m4, m5⟩ := meta_fields g.kvs
  have hb : buildMeta ((g.metas.filterMap Prod.snd).foldl (fun mb kv => metaField mb kv.1 kv.2) {}) = .ok seg.info := by
    unfold SegText.kvs at m1 m2 m3 m4 m5
    unfold buildMeta need
    rw [m1, m2, m3, m4, m5]
    have := h.objectId
    have := h.objectName
    have := h.refFrame
    have := h.timeSystem
    have := h.centerName
    unfold SegText.kvs at *
    simp only [*, Res.ofOption, Res.bind]
  unfold stepLine
  dsimp only
  rw [if_pos rfl, hb]
  simp only [Res.bind]
  rw [data_loop h.datas _ _ ⟨seg.info, []⟩ rfl, List.nil_append, ← h.states]

/-- Several segments. -/
theorem segments_loop {gs : List (SegText × Segment)} (h : ∀ g ∈ gs, SegOk g.1 g.2) (n : Nat) (s : St)
    (hm : s.mode = .header ∨ ∃ old, s.mode = .data old) :
    ∃ s', loop n s (gs.flatMap (fun g => g.1.lines)) = .ok s' ∧ s'.version = s.version ∧ s'.creation = s.creation ∧
      s'.originator = s.originator ∧ finished s' = finished s ++ gs.map Prod.snd := by
  induction gs generalizing n s with
  | nil => exact ⟨s, rfl, rfl, rfl, rfl, by simp⟩
  | cons g gs ih =>
    rw [List.flatMap_cons, loop_append, segment_loop (h g List.mem_cons_self) n s hm]
    simp only [Res.bind]
    obtain ⟨s', h1, h2, h3, h4, h5⟩ := ih (fun g' hg => h g' (List.mem_cons_of_mem _ hg)) (n + g.1.lines.length)
      { s with segments := finished s, mode := .data g.2 } (Or.inr ⟨_, rfl⟩)
    refine ⟨s', h1, h2, h3, h4, ?_⟩
    rw [h5]
    simp [finished]

/-! ### C50 -/

/-- A file of a header and segments without covariance and manoeuvre blocks is read completely: every state
line, in order, in the segment of the metadata before it; the last assignment of a key counts. The files
with such blocks are missing, and are read wrongly: `block_loses_single_segment`, `block_loses_second_segment`. -/
theorem read_segments_partial {text : Str} {hs : List (Str × Option (Str × Str))} {gs : List (SegText × Segment)} (hh : KvLines hs)
    (hg : ∀ g ∈ gs, SegOk g.1 g.2) (hne : gs ≠ [])
    (htext : lines text = hs.map Prod.fst ++ gs.flatMap (fun g => g.1.lines)) :
    readOem text = .ok ⟨(lastValue "CCSDS_OEM_VERS" (hs.filterMap Prod.snd)).getD "unknown".toList,
      (lastValue "CREATION_DATE" (hs.filterMap Prod.snd)).getD [], (lastValue "ORIGINATOR" (hs.filterMap Prod.snd)).getD [],
      gs.map Prod.snd⟩ := by
  unfold readOem
  rw [htext, loop_append, header_loop hh 0 {} rfl]
  simp only [Res.bind]
  obtain ⟨v1, v2, v3⟩ := header_version (hs.filterMap Prod.snd) {}
  obtain ⟨k1, k2⟩ := header_keeps (hs.filterMap Prod.snd) {}
  obtain ⟨s', h1, h2, h3, h4, h5⟩ := segments_loop hg (0 + (hs.map Prod.fst).length)
    ((hs.filterMap Prod.snd).foldl (fun s kv => headerField s kv.1 kv.2) {}) (Or.inl k1)
  rw [h1]
  simp only [Res.bind]
  have hfin : finished ((hs.filterMap Prod.snd).foldl (fun s kv => headerField s kv.1 kv.2) {}) = [] := by
    unfold finished
    rw [k1, k2]
  rw [hfin, List.nil_append] at h5
  have hfinish : finish s' = if finished s' = [] then .err .noSegments
      else .ok ⟨s'.version.getD "unknown".toList, s'.creation.getD [], s'.originator.getD [], finished s'⟩ := by
    unfold finish finished
    cases s'.mode <;> rfl
  rw [hfinish, h5, if_neg (by simp [hne]), h2, h3, h4, v1, v2, v3]
  simp

/-! ### Blocks -/

theorem skip_loop (ls : List Str) (h : ∀ l ∈ ls, trim l ≠ "COVARIANCE_STOP".toList ∧ trim l ≠ "MAN_STOP".toList) (n : Nat) (s : St)
    (hm : s.mode = .skip) : loop n s ls = .ok s := by
  induction ls generalizing n with
  | nil => rfl
  | cons l ls ih =>
    rw [loop]
    have hl := h l List.mem_cons_self
    have hstep : step n s l = .ok s := by
      by_cases hb : Blank l
      · exact step_blank hb n s
      · rw [step_line hb]
        unfold stepLine
        rw [hm]
        dsimp only
        rw [if_neg (by rintro (hc | hc); exacts [hl.1 hc, hl.2 hc])]
    rw [hstep]
    exact ih (fun l' hl' => h l' (List.mem_cons_of_mem _ hl')) (n + 1)

theorem block_loop {ls : List Str} (h : BlockOk ls) (n : Nat) (s : St) (seg : Segment) (hm : s.mode = .data seg) :
    loop n s ls = .ok (resume { s with mode := .skip }) := by
  obtain ⟨b, body, e, rfl, hbe, hbody⟩ := h.parts
  have hb : trim b = "COVARIANCE_START".toList ∨ trim b = "MAN_START".toList := by rcases hbe with h | h; exacts [Or.inl h.1, Or.inr h.1]
  have he : trim e = "COVARIANCE_STOP".toList ∨ trim e = "MAN_STOP".toList := by rcases hbe with h | h; exacts [Or.inl h.2, Or.inr h.2]
  have nb : ¬ Blank b := by
    rcases hb with h | h
    · exact not_blank_word h (by decide) (by decide)
    · exact not_blank_word h (by decide) (by decide)
  have ne : ¬ Blank e := by
    rcases he with h | h
    · exact not_blank_word h (by decide) (by decide)
    · exact not_blank_word h (by decide) (by decide)
  rw [loop, step_line nb]
  have h1 : stepLine n s (trim b) = .ok { s with mode := .skip } := by
    unfold stepLine
    rw [hm]
    dsimp only
    rw [if_neg (by rcases hb with h | h <;> rw [h] <;> decide), if_pos hb]
  rw [h1]
  simp only [Res.bind]
  rw [loop_append, skip_loop body hbody _ _ rfl]
  simp only [Res.bind]
  rw [loop, step_line ne]
  unfold stepLine
  dsimp only
  rw [if_pos he]
  rfl

/-- Disagreement: a file of one segment with a covariance or manoeuvre block after its states is refused, for
every such file. -/
theorem block_loses_single_segment {text : Str} {hs : List (Str × Option (Str × Str))} {g : SegText} {seg : Segment} {block : List Str}
    (hh : KvLines hs) (hg : SegOk g seg) (hb : BlockOk block) (htext : lines text = hs.map Prod.fst ++ (g.lines ++ block)) :
    readOem text = .err .noSegments := by
  unfold readOem
  rw [htext, loop_append, header_loop hh 0 {} rfl]
  simp only [Res.bind]
  obtain ⟨k1, k2⟩ := header_keeps (hs.filterMap Prod.snd) {}
  rw [loop_append, segment_loop hg _ _ (Or.inl k1)]
  simp only [Res.bind]
  rw [block_loop hb _ _ seg rfl]
  unfold finished
  rw [k1, k2]
  rfl

/-- Disagreement: with two segments and a block after the second, the second segment is lost, and the first
appears twice, once without states. For every such file. -/
theorem block_loses_second_segment {text : Str} {hs : List (Str × Option (Str × Str))} {g g' : SegText} {seg seg' : Segment}
    {block : List Str} (hh : KvLines hs) (hg : SegOk g seg) (hg' : SegOk g' seg') (hb : BlockOk block)
    (htext : lines text = hs.map Prod.fst ++ (g.lines ++ (g'.lines ++ block))) :
    ∃ f, readOem text = .ok f ∧ f.segments = [⟨seg.info, []⟩, seg] := by
  unfold readOem
  rw [htext, loop_append, header_loop hh 0 {} rfl]
  simp only [Res.bind]
  obtain ⟨k1, k2⟩ := header_keeps (hs.filterMap Prod.snd) {}
  rw [loop_append, segment_loop hg _ _ (Or.inl k1)]
  simp only [Res.bind]
  rw [loop_append, segment_loop hg' _ _ (Or.inr ⟨_, rfl⟩)]
  simp only [Res.bind]
  rw [block_loop hb _ _ seg' rfl]
  unfold finished
  rw [k1, k2]
  simp only [resume, List.nil_append, List.getLast?_singleton, List.dropLast_singleton, Res.bind, finish, List.singleton_append]
  exact ⟨_, rfl, rfl⟩

/-- Disagreement: text that ends inside a block, or inside metadata, is accepted, without the states read
just before it. -/
theorem unfinished_block_accepted {text : Str} {hs : List (Str × Option (Str × Str))} {g g' : SegText} {seg seg' : Segment}
    {b : Str} {body : List Str} (hh : KvLines hs) (hg : SegOk g seg) (hg' : SegOk g' seg') (hb : trim b = "COVARIANCE_START".toList)
    (hbody : ∀ l ∈ body, trim l ≠ "COVARIANCE_STOP".toList ∧ trim l ≠ "MAN_STOP".toList)
    (htext : lines text = hs.map Prod.fst ++ (g.lines ++ (g'.lines ++ b :: body))) :
    ∃ f, readOem text = .ok f ∧ f.segments = [seg] := by
  unfold readOem
  rw [htext, loop_append, header_loop hh 0 {} rfl]
  simp only [Res.bind]
  obtain ⟨k1, k2⟩ := header_keeps (hs.filterMap Prod.snd) {}
  rw [loop_append, segment_loop hg _ _ (Or.inl k1)]
  simp only [Res.bind]
  rw [loop_append, segment_loop hg' _ _ (Or.inr ⟨_, rfl⟩)]
  simp only [Res.bind]
  rw [loop, step_line (not_blank_word hb (by decide) (by decide)), hb]
  unfold stepLine
  dsimp only
  rw [if_neg (by decide), if_pos (Or.inl rfl)]
  simp only [Res.bind]
  rw [skip_loop body hbody _ _ rfl]
  unfold finished
  rw [k1, k2]
  exact ⟨_, rfl, rfl⟩

/-- A small file: the hypotheses of `read_segments_partial`, `block_loses_single_segment` and
`block_loses_second_segment`. -/
def exMeta : List (Str × Option (Str × Str)) :=
  [(" OBJECT_NAME = N".toList, some ("OBJECT_NAME".toList, "N".toList)), ("COMMENT x".toList, none),
   ("OBJECT_ID=A".toList, some ("OBJECT_ID".toList, "A".toList)), ("REF_FRAME = ICRF".toList, some ("REF_FRAME".toList, "ICRF".toList)),
   ("OBJECT_ID=B".toList, some ("OBJECT_ID".toList, "B".toList)),
   ("TIME_SYSTEM = UTC".toList, some ("TIME_SYSTEM".toList, "UTC".toList)), ("CENTER_NAME = EARTH".toList, some ("CENTER_NAME".toList, "EARTH".toList))]

def exSeg : SegText := ⟨"META_START".toList, exMeta, "META_STOP ".toList,
  [([], none), ("2000-01-01T12:00:00 1 2 3 4 5 6.5 extra".toList, some ⟨.num 2451545, 1, 2, 3, 4, 5, 13 / 2⟩)]⟩

def exSegment : Segment := ⟨⟨"B".toList, "N".toList, "ICRF".toList, "UTC".toList, "EARTH".toList⟩, [⟨.num 2451545, 1, 2, 3, 4, 5, 13 / 2⟩]⟩

theorem exSeg_ok : SegOk exSeg exSegment := by
  have kv : ∀ raw k v : Str, (¬ (trim raw = [] ∨ "COMMENT".toList.isPrefixOf (trim raw) = true)) →
      ((find1 '=' (trim raw)).map (fun p => (p.1 ++ '=' :: p.2, decide ('=' ∈ p.1), trim p.1, trim p.2))) = some (trim raw, false, k, v) → KvLine raw k v := by
    intro raw k v hb hf
    refine ⟨hb, ?_⟩
    cases h : find1 '=' (trim raw) with
    | none => rw [h] at hf; simp at hf
    | some p =>
      rw [h] at hf
      simp only [Option.map_some, Option.some.injEq, Prod.mk.injEq, decide_eq_false_iff_not] at hf
      exact ⟨p.1, p.2, hf.1.symm, hf.2.1, hf.2.2.1.symm, hf.2.2.2.symm⟩
  refine ⟨by decide, ?_, by decide, ?_, by decide, by decide, by decide, by decide, by decide, rfl⟩
  · intro l hl
    change l ∈ exMeta at hl
    simp only [exMeta, List.mem_cons, List.not_mem_nil, or_false] at hl
    rcases hl with rfl | rfl | rfl | rfl | rfl | rfl | rfl
    · exact kv _ _ _ (by decide +kernel) (by decide +kernel)
    · exact Or.inr (by decide)
    · exact kv _ _ _ (by decide +kernel) (by decide +kernel)
    · exact kv _ _ _ (by decide +kernel) (by decide +kernel)
    · exact kv _ _ _ (by decide +kernel) (by decide +kernel)
    · exact kv _ _ _ (by decide +kernel) (by decide +kernel)
    · exact kv _ _ _ (by decide +kernel) (by decide +kernel)
  · intro l hl
    change l ∈ [([], none), ("2000-01-01T12:00:00 1 2 3 4 5 6.5 extra".toList, some _)] at hl
    simp only [List.mem_cons, List.not_mem_nil, or_false] at hl
    rcases hl with rfl | rfl
    · exact Or.inl (by decide)
    · refine ⟨by unfold Blank; decide +kernel, "2000-01-01T12:00:00".toList, "1".toList, "2".toList, "3".toList, "4".toList, "5".toList, "6.5".toList, ["extra".toList],
        2451545, by decide +kernel, ?_, rfl, by decide +kernel, by decide +kernel, by decide +kernel, by decide +kernel, by decide +kernel, by decide +kernel⟩
      refine ⟨"2000".toList, "01".toList, "01".toList, "12".toList, "00".toList, "00".toList, 2000, 1, 1, 12, 0, 0, by decide, ⟨by decide, by decide, by decide⟩,
        ⟨by decide, by decide, by decide⟩, ⟨by decide, by decide, by decide⟩, ⟨by decide, by decide, by decide⟩, ⟨by decide, by decide, by decide⟩,
        by decide, by decide +kernel, ⟨by decide, by decide, by decide, by decide⟩, by decide, by decide, by decide, ?_⟩
      have hd : dayNumber 2000 1 1 = 2451545 := by decide +kernel
      rw [hd]
      norm_num

example : BlockOk ["COVARIANCE_START".toList, "EPOCH = X".toList, "1 2 3".toList, "COVARIANCE_STOP".toList] :=
  ⟨"COVARIANCE_START".toList, ["EPOCH = X".toList, "1 2 3".toList], "COVARIANCE_STOP".toList, rfl, by decide, by decide⟩

example : (readOem (unlines (exSeg.lines ++ ["COVARIANCE_START".toList, "1 2 3".toList, "COVARIANCE_STOP".toList]))) = .err .noSegments :=
  block_loses_single_segment (hs := []) (fun l hl => absurd hl (by simp)) exSeg_ok
    ⟨"COVARIANCE_START".toList, ["1 2 3".toList], "COVARIANCE_STOP".toList, rfl, by decide, by decide⟩ (by decide +kernel)

end Verif.Ccsds.Props
