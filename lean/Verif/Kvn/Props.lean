import Verif.Kvn.Tdm
import Verif.Naming.Props

/-
Writing tracking data messages and reading them back; what is lost.
-/
namespace Verif.Kvn.Props
open Verif.Text Verif.Kvn

/-! ### Specification -/

/-- A keyword that names its observable on the wire: one word without `=`, none of the standard observables, and no comment or version. -/
def KeywordOk (s : Str) : Prop :=
  s ≠ [] ∧ Tight s ∧ '=' ∉ s ∧ '\n' ∉ s ∧ s ∉ ["RANGE", "DOPPLER_INSTANTANEOUS", "DOPPLER_INTEGRATED", "ANGLE_1", "ANGLE_2"].map String.toList ∧
    "COMMENT".toList.isPrefixOf s = false ∧ "CCSDS_TDM".toList.isPrefixOf s = false

/-- An observation that a line can carry; the text of the value is one word that reads as the value. -/
structure ObsOk (disp : F64 → Str) (o : Obs) : Prop where
  kind : ∀ s, o.kind = .other s → KeywordOk s
  epoch : Carried o.epoch
  given : o.epoch ≠ []
  word : disp o.value ≠ [] ∧ ∀ c ∈ disp o.value, isWs c = false
  back : parseFloat (disp o.value) = some o.value

/-- A metadata block that lines can carry. -/
structure MetaOk (m : TdmMeta) : Prop where
  participants : ∀ p ∈ m.participants, Carried p
  mode : Carried m.mode
  path : Carried m.path
  time : Carried m.timeSystem

/-! ### Lines -/

theorem eq_not_prefix {p a b : Str} (he : '=' ∉ p) (h : p.isPrefixOf a = false) : p.isPrefixOf (a ++ ('=' :: b)) = false := by
  induction p generalizing a with
  | nil => simp at h
  | cons x p ih =>
    simp only [List.mem_cons, not_or] at he
    cases a with
    | nil =>
      simp only [List.nil_append, List.isPrefixOf, Bool.and_eq_false_iff]
      left
      simpa using Ne.symm he.1
    | cons y a =>
      simp only [List.isPrefixOf, Bool.and_eq_false_iff, List.cons_append] at h ⊢
      rcases h with h | h
      · left; exact h
      · right; exact ih he.2 h

theorem prefix_blank {p a b : Str} (hb : ∀ c ∈ p, c ≠ ' ') (h : p.isPrefixOf a = false) (hs : ∀ c ∈ b, c = ' ') : p.isPrefixOf (a ++ b) = false := by
  induction p generalizing a with
  | nil => simp at h
  | cons x p ih =>
    cases a with
    | nil =>
      cases b with
      | nil => simp [List.isPrefixOf]
      | cons y b =>
        simp only [List.nil_append, List.isPrefixOf, Bool.and_eq_false_iff]
        left
        have := hs y (by simp)
        have h2 := hb x (by simp)
        rw [this]
        simpa using h2
    | cons y a =>
      simp only [List.isPrefixOf, Bool.and_eq_false_iff, List.cons_append] at h ⊢
      rcases h with h | h
      · left; exact h
      · right; exact ih (fun c hc => hb c (by simp [hc])) h

theorem field_pair {key pad v : Str} (hk : Tight key) (hne : key ≠ []) (he : '=' ∉ key) (hpad : ∀ c ∈ pad, c = ' ')
    (hc : "COMMENT".toList.isPrefixOf key = false) (ht : "CCSDS_TDM".toList.isPrefixOf key = false) (hv : Carried v) :
    Pair (key ++ (pad ++ ("= ".toList ++ v))) key v := by
  have hcp : "COMMENT".toList.isPrefixOf (key ++ pad) = false := prefix_blank (by decide) hc hpad
  have htp : "CCSDS_TDM".toList.isPrefixOf (key ++ pad) = false := prefix_blank (by decide) ht hpad
  have hA := field_assigns (key := key) (pad := pad) (v := v) hk hne he hpad (by
    rw [← List.append_assoc]; exact eq_not_prefix (by decide) hcp) hv
  obtain ⟨h1, a, b, h2, h3, h4, h5⟩ := hA
  refine ⟨?_, a, b, h2, h3, h4, h5⟩
  rintro (h | h | h)
  · rw [h2] at h; simp at h
  · rw [h1] at h; simp at h
  · rw [h2] at h
    have hap : a = key ++ pad := by
      have hpe : '=' ∉ pad := fun h => absurd (hpad _ h) (by decide)
      have e : trim (key ++ (pad ++ ("= ".toList ++ v))) = (key ++ pad) ++ '=' :: (trimEnd (' ' :: v)) := by
        unfold trim
        rw [trimStart_tight (by
          intro c hc
          rw [List.head?_append_of_ne_nil _ hne] at hc
          exact hk.1 c hc)]
        by_cases hv0 : v = []
        · subst hv0
          have e1 : key ++ (pad ++ ("= ".toList ++ [])) = (key ++ (pad ++ "=".toList)) ++ List.replicate 1 ' ' := by simp
          rw [e1, trimEnd_replicate, trimEnd_tight]
          · have : trimEnd [' '] = [] := by decide
            rw [this]; simp
          · intro c hc
            rw [← List.append_assoc, List.getLast?_append_of_ne_nil _ (by decide)] at hc
            have : ("=".toList).getLast? = some '=' := by decide
            rw [this] at hc
            cases hc
            decide
        · have e1 : key ++ (pad ++ ("= ".toList ++ v)) = (key ++ (pad ++ "= ".toList)) ++ v := by simp
          have e2 : ' ' :: v = [' '] ++ v := rfl
          rw [e1, trimEnd_append hv.1 hv0, e2, trimEnd_append hv.1 hv0]
          simp
      have h6 := find1_append h3 b
      rw [← h2, e, find1_append (by simp [he, hpe])] at h6
      simp only [Option.some.injEq, Prod.mk.injEq] at h6
      exact h6.1.symm
    rw [hap, eq_not_prefix (by decide) htp] at h
    simp at h

theorem lineOk_field {a v : Str} (ha : '\n' ∉ a) (hv : Carried v) : LineOk (a ++ ("= ".toList ++ v)) := by
  constructor
  · intro h
    rcases List.mem_append.mp h with h | h
    · exact ha h
    · rcases List.mem_append.mp h with h | h
      · exact absurd h (by decide)
      · exact hv.2 h
  · by_cases h0 : v = []
    · subst h0
      rw [List.append_nil, List.getLast?_append_of_ne_nil _ (by decide)]
      decide
    · rw [← List.append_assoc, List.getLast?_append_of_ne_nil _ h0]
      intro h
      exact absurd (hv.1.2 _ h) (by decide)

/-! ### Metadata blocks -/

theorem natStr_key (n : Nat) : Tight ("PARTICIPANT_".toList ++ natStr n) ∧ '=' ∉ "PARTICIPANT_".toList ++ natStr n ∧
    '\n' ∉ "PARTICIPANT_".toList ++ natStr n := by
  have hd := (natStr_digits n).1
  rw [List.all_eq_true] at hd
  refine ⟨tight_of_all ?_, ?_, ?_⟩
  · intro c hc
    rcases List.mem_append.mp hc with hc | hc
    · exact (by decide : ∀ c ∈ "PARTICIPANT_".toList, isWs c = false) c hc
    · exact isDigit_not_ws (hd c hc)
  · intro hc
    rcases List.mem_append.mp hc with hc | hc
    · exact absurd hc (by decide)
    · exact absurd (hd _ hc) (by decide)
  · intro hc
    rcases List.mem_append.mp hc with hc | hc
    · exact absurd hc (by decide)
    · exact absurd (hd _ hc) (by decide)

def partBody : Nat → List Str → Body
  | _, [] => []
  | j, p :: ps => ("PARTICIPANT_".toList ++ (natStr (j + 1) ++ (" = ".toList ++ p)), some ("PARTICIPANT_".toList ++ natStr (j + 1), p)) :: partBody (j + 1) ps

def optBody (key : String) (v : Str) : Body :=
  if v = [] then [] else [(padRight 17 key.toList ++ ("= ".toList ++ v), some (key.toList, v))]

theorem partBody_lines (j : Nat) (ps : List Str) : (partBody j ps).map Prod.fst = participantLines j ps := by
  induction ps generalizing j with
  | nil => rfl
  | cons p ps ih => simp only [partBody, participantLines, List.map_cons, ih]

theorem optBody_lines (key : String) (v : Str) : (optBody key v).map Prod.fst = optField key v := by
  unfold optBody optField
  split <;> rfl

theorem part_line (j : Nat) (p : Str) : "PARTICIPANT_".toList ++ (natStr (j + 1) ++ (" = ".toList ++ p)) =
    ("PARTICIPANT_".toList ++ natStr (j + 1)) ++ ([' '] ++ ("= ".toList ++ p)) := by
  have : " = ".toList = [' '] ++ "= ".toList := by decide
  rw [this]
  simp

theorem partBody_ok {ps : List Str} (h : ∀ p ∈ ps, Carried p) (j : Nat) : BodyOk (partBody j ps) := by
  induction ps generalizing j with
  | nil => intro l hl; simp [partBody] at hl
  | cons p ps ih =>
    intro l hl
    unfold partBody at hl
    rcases List.mem_cons.mp hl with rfl | hl
    · dsimp only
      obtain ⟨h1, h2, _⟩ := natStr_key (j + 1)
      rw [part_line]
      refine field_pair h1 (by simp) h2 (by simp) ?_ ?_ (h p (by simp))
      · rfl
      · rfl
    · exact ih (fun q hq => h q (by simp [hq])) (j + 1) l hl

theorem optBody_ok {key : String} {v : Str} (hv : Carried v)
    (hk : (∀ c ∈ key.toList, isWs c = false) ∧ key.toList ≠ [] ∧ '=' ∉ key.toList ∧ "COMMENT".toList.isPrefixOf key.toList = false ∧
      "CCSDS_TDM".toList.isPrefixOf key.toList = false) : BodyOk (optBody key v) := by
  intro l hl
  unfold optBody at hl
  split at hl
  · simp at hl
  · rw [List.mem_singleton.mp hl]
    dsimp only
    unfold padRight
    rw [List.append_assoc]
    exact field_pair (tight_of_all hk.1) hk.2.1 hk.2.2.1 (fun c hc => List.eq_of_mem_replicate hc) hk.2.2.2.1 hk.2.2.2.2 hv

theorem body_append {a b : Body} (ha : BodyOk a) (hb : BodyOk b) : BodyOk (a ++ b) := by
  intro l hl
  rcases List.mem_append.mp hl with hl | hl
  · exact ha l hl
  · exact hb l hl

def metaBody (m : TdmMeta) : Body :=
  partBody 0 m.participants ++ (optBody "MODE" m.mode ++ (optBody "PATH" m.path ++ optBody "TIME_SYSTEM" m.timeSystem))

def metaBlock (m : TdmMeta) : Block := .info "META_START".toList (metaBody m) "META_STOP".toList m

theorem metaBlock_lines (m : TdmMeta) : (metaBlock m).lines = metaLines m := by
  unfold metaBlock Block.lines metaLines metaBody
  simp only [List.map_append, partBody_lines, optBody_lines, List.append_assoc]

theorem part_pairs (j : Nat) (ps : List Str) :
    ((pairs (partBody j ps)).filter (fun p => "PARTICIPANT_".toList.isPrefixOf p.1)).map Prod.snd = ps ∧
    (∀ p ∈ pairs (partBody j ps), "PARTICIPANT_".toList.isPrefixOf p.1 = true) := by
  induction ps generalizing j with
  | nil => exact ⟨rfl, by simp [partBody, pairs]⟩
  | cons p ps ih =>
    obtain ⟨h1, h2⟩ := ih (j + 1)
    have hp : "PARTICIPANT_".toList.isPrefixOf ("PARTICIPANT_".toList ++ natStr (j + 1)) = true :=
      List.isPrefixOf_iff_prefix.mpr ⟨_, rfl⟩
    have e : pairs (partBody j (p :: ps)) = ("PARTICIPANT_".toList ++ natStr (j + 1), p) :: pairs (partBody (j + 1) ps) := rfl
    rw [e]
    constructor
    · rw [List.filter_cons, if_pos hp, List.map_cons, h1]
    · intro q hq
      rcases List.mem_cons.mp hq with rfl | hq
      · exact hp
      · exact h2 q hq

theorem opt_pairs (key : String) (v : Str) : pairs (optBody key v) = if v = [] then [] else [(key.toList, v)] := by
  unfold optBody pairs
  split <;> rfl

theorem lastOr_skip {a b : List (Str × Str)} {key : String} {v : Str} (h : LastOr b key v) (ha : ∀ p ∈ a, p.1 ≠ key.toList) : LastOr (a ++ b) key v := by
  rcases h with ⟨pre, post, rfl, hp⟩ | ⟨hp, rfl⟩
  · exact Or.inl ⟨a ++ pre, post, by simp, hp⟩
  · refine Or.inr ⟨?_, rfl⟩
    intro p hm
    rcases List.mem_append.mp hm with hm | hm
    · exact ha p hm
    · exact hp p hm

theorem lastOr_keep {a b : List (Str × Str)} {key : String} {v : Str} (h : LastOr a key v) (hb : ∀ p ∈ b, p.1 ≠ key.toList) : LastOr (a ++ b) key v := by
  rcases h with ⟨pre, post, rfl, hp⟩ | ⟨hp, rfl⟩
  · refine Or.inl ⟨pre, post ++ b, by simp, ?_⟩
    intro p hm
    rcases List.mem_append.mp hm with hm | hm
    · exact hp p hm
    · exact hb p hm
  · refine Or.inr ⟨?_, rfl⟩
    intro p hm
    rcases List.mem_append.mp hm with hm | hm
    · exact hp p hm
    · exact hb p hm

theorem lastOr_opt (key : String) (v : Str) : LastOr (pairs (optBody key v)) key v := by
  rw [opt_pairs]
  split
  · rename_i h; exact Or.inr ⟨by simp, h⟩
  · exact Or.inl ⟨[], [], rfl, by simp⟩

theorem opt_other {key key' : String} (h : key.toList ≠ key'.toList) (v : Str) : ∀ p ∈ pairs (optBody key v), p.1 ≠ key'.toList := by
  rw [opt_pairs]
  split
  · simp
  · intro p hp; rw [List.mem_singleton.mp hp]; exact h

theorem metaBlock_ok {m : TdmMeta} (h : MetaOk m) : (metaBlock m).Ok := by
  refine ⟨by decide, body_append (partBody_ok h.participants 0) (body_append (optBody_ok h.mode (by decide))
    (body_append (optBody_ok h.path (by decide)) (optBody_ok h.time (by decide)))), by decide, ?_⟩
  have e : pairs (metaBody m) = pairs (partBody 0 m.participants) ++ (pairs (optBody "MODE" m.mode) ++ (pairs (optBody "PATH" m.path) ++ pairs (optBody "TIME_SYSTEM" m.timeSystem))) := by
    unfold metaBody pairs
    simp only [List.filterMap_append]
  obtain ⟨p1, p2⟩ := part_pairs 0 m.participants
  have part : ∀ p ∈ pairs (partBody 0 m.participants), p.1 ≠ "MODE".toList ∧ p.1 ≠ "PATH".toList ∧ p.1 ≠ "TIME_SYSTEM".toList := fun p hp => prefix_key (p2 p hp)
  have np : ∀ key v, "PARTICIPANT_".toList.isPrefixOf (String.toList key) = false →
      (pairs (optBody key v)).filter (fun p => "PARTICIPANT_".toList.isPrefixOf p.1) = [] := by
    intro key v hk
    rw [opt_pairs]
    split
    · rfl
    · rw [List.filter_cons, if_neg (by rw [hk]; simp)]; rfl
  have app : ∀ (a b : List (Str × Str)) (key : String), (∀ p ∈ a, p.1 ≠ key.toList) → (∀ p ∈ b, p.1 ≠ key.toList) → ∀ p ∈ a ++ b, p.1 ≠ key.toList := by
    intro a b key ha hb p hp
    rcases List.mem_append.mp hp with hp | hp
    · exact ha p hp
    · exact hb p hp
  rw [e]
  refine ⟨?_, ?_, ?_, ?_⟩
  · rw [List.filter_append, List.filter_append, List.filter_append, np _ _ (by decide), np _ _ (by decide), np _ _ (by decide)]
    simp only [List.append_nil]
    exact p1.symm
  · exact lastOr_skip (lastOr_keep (lastOr_opt _ _) (app _ _ _ (opt_other (by decide) _) (opt_other (by decide) _))) (fun p hp => (part p hp).1)
  · exact lastOr_skip (lastOr_skip (lastOr_keep (lastOr_opt _ _) (opt_other (by decide) _)) (opt_other (by decide) _)) (fun p hp => (part p hp).2.1)
  · exact lastOr_skip (lastOr_skip (lastOr_skip (lastOr_opt _ _) (opt_other (by decide) _)) (opt_other (by decide) _)) (fun p hp => (part p hp).2.2)

theorem partLines_ok {ps : List Str} (h : ∀ p ∈ ps, Carried p) (j : Nat) : ∀ l ∈ participantLines j ps, LineOk l := by
  induction ps generalizing j with
  | nil => intro l hl; simp [participantLines] at hl
  | cons p ps ih =>
    intro l hl
    unfold participantLines at hl
    rcases List.mem_cons.mp hl with rfl | hl
    · rw [part_line, ← List.append_assoc]
      apply lineOk_field _ (h p (by simp))
      intro hm
      rcases List.mem_append.mp hm with hm | hm
      · exact (natStr_key (j + 1)).2.2 hm
      · exact absurd hm (by decide)
    · exact ih (fun q hq => h q (by simp [hq])) (j + 1) l hl

theorem optLines_ok {key : String} {v : Str} (hk : '\n' ∉ padRight 17 key.toList) (hv : Carried v) : ∀ l ∈ optField key v, LineOk l := by
  unfold optField
  split
  · simp
  · intro l hl
    rw [List.mem_singleton.mp hl]
    exact lineOk_field hk hv

theorem metaLines_ok {m : TdmMeta} (h : MetaOk m) : ∀ l ∈ metaLines m, LineOk l := by
  intro l hl
  unfold metaLines at hl
  simp only [List.mem_cons, List.mem_append, List.not_mem_nil, or_false] at hl
  rcases hl with rfl | hl | hl | hl | hl | rfl
  · exact ⟨by decide, by decide⟩
  · exact partLines_ok h.participants 0 l hl
  · exact optLines_ok (by decide) h.mode l hl
  · exact optLines_ok (by decide) h.path l hl
  · exact optLines_ok (by decide) h.time l hl
  · exact ⟨by decide, by decide⟩

/-! ### Data block -/

theorem keyword_facts {disp : F64 → Str} {o : Obs} (h : ObsOk disp o) : KindSays (keywordOf o.kind) o.kind ∧ Tight (keywordOf o.kind) ∧
    keywordOf o.kind ≠ [] ∧ '=' ∉ keywordOf o.kind ∧ '\n' ∉ keywordOf o.kind ∧ "COMMENT".toList.isPrefixOf (keywordOf o.kind) = false ∧
    "CCSDS_TDM".toList.isPrefixOf (keywordOf o.kind) = false := by
  have hk := h.kind
  rcases hko : o.kind with _ | _ | _ | _ | s
  · exact ⟨rfl, ⟨by decide, by decide⟩, by decide, by decide, by decide, by decide, by decide⟩
  · exact ⟨Or.inl rfl, ⟨by decide, by decide⟩, by decide, by decide, by decide, by decide, by decide⟩
  · exact ⟨rfl, ⟨by decide, by decide⟩, by decide, by decide, by decide, by decide, by decide⟩
  · exact ⟨rfl, ⟨by decide, by decide⟩, by decide, by decide, by decide, by decide, by decide⟩
  · obtain ⟨h1, h2, h3, h4, h5, h6, h7⟩ := hk s hko
    exact ⟨⟨rfl, h5⟩, h2, h1, h3, h4, h6, h7⟩

def obsText (disp : F64 → Str) (o : Obs) : Str := o.epoch ++ (" : ".toList ++ disp o.value)

theorem word_no_sep {w a b : Str} (hw : ' ' ∉ w) : w ≠ a ++ (" : ".toList ++ b) := by
  rintro rfl
  apply hw
  simp

theorem sep_last {e w e' s' : Str} (hw : ' ' ∉ w) (h : e ++ (" : ".toList ++ w) = e' ++ (" : ".toList ++ s')) : e'.length ≤ e.length := by
  by_contra hc
  have hc' : e.length < e'.length := by omega
  have h1 := congrArg (List.drop (e.length + 1)) h
  rw [List.drop_append_of_le_length (by omega : e.length + 1 ≤ e'.length)] at h1
  have h2 : List.drop (e.length + 1) (e ++ (" : ".toList ++ w)) = ": ".toList ++ w := by
    rw [List.drop_append]
    have : List.drop (e.length + 1) e = [] := List.drop_eq_nil_of_le (by omega)
    rw [this]
    have : e.length + 1 - e.length = 1 := by omega
    rw [this]
    rfl
  rw [h2] at h1
  have h3 : ": ".toList ++ w = ':' :: ' ' :: w := rfl
  rw [h3] at h1
  generalize List.drop (e.length + 1) e' = f at h1
  rcases f with _ | ⟨x, _ | ⟨y, f⟩⟩
  · simp at h1
  · simp at h1
    exact hw (by rw [h1.2]; simp)
  · simp only [List.cons_append, List.cons.injEq] at h1
    exact word_no_sep hw h1.2.2

theorem obs_text_carried {disp : F64 → Str} {o : Obs} (h : ObsOk disp o) : Carried (obsText disp o) := by
  unfold obsText
  refine ⟨⟨?_, ?_⟩, ?_⟩
  · intro c hc
    rw [List.head?_append_of_ne_nil _ h.given] at hc
    exact h.epoch.1.1 c hc
  · intro c hc
    rw [← List.append_assoc, List.getLast?_append_of_ne_nil _ h.word.1] at hc
    exact h.word.2 c (List.mem_of_getLast? hc)
  · intro hm
    rcases List.mem_append.mp hm with hm | hm
    · exact h.epoch.2 hm
    · rcases List.mem_append.mp hm with hm | hm
      · exact absurd hm (by decide)
      · exact absurd (h.word.2 _ hm) (by decide)

theorem obs_line (disp : F64 → Str) (o : Obs) : obsLine disp o = keywordOf o.kind ++ ([' '] ++ ("= ".toList ++ obsText disp o)) := by
  unfold obsLine obsText
  have : " = ".toList = [' '] ++ "= ".toList := by decide
  rw [this]
  simp

def obsBody (disp : F64 → Str) (os : List Obs) : Body := os.map (fun o => (obsLine disp o, some (keywordOf o.kind, obsText disp o)))

theorem obsBody_ok {disp : F64 → Str} {os : List Obs} (h : ∀ o ∈ os, ObsOk disp o) :
    BodyOk (obsBody disp os) ∧ List.Forall₂ ObsSays (pairs (obsBody disp os)) os := by
  constructor
  · intro l hl
    obtain ⟨o, ho, rfl⟩ := List.mem_map.mp hl
    dsimp only
    obtain ⟨_, h2, h3, h4, _, h6, h7⟩ := keyword_facts (h o ho)
    rw [obs_line]
    exact field_pair h2 h3 h4 (by simp) h6 h7 (obs_text_carried (h o ho))
  · induction os with
    | nil => exact List.Forall₂.nil
    | cons o os ih =>
      have e : pairs (obsBody disp (o :: os)) = (keywordOf o.kind, obsText disp o) :: pairs (obsBody disp os) := rfl
      rw [e]
      have ho := h o (by simp)
      have hw : ' ' ∉ disp o.value := fun hm => absurd (ho.word.2 _ hm) (by decide)
      refine List.Forall₂.cons ⟨(keyword_facts ho).1, o.epoch, disp o.value, rfl, fun e' s' he => sep_last hw he, ?_, ?_⟩
        (ih (fun x hx => h x (by simp [hx])))
      · rw [trim_tight ho.epoch.1]
      · rw [trim_tight (tight_of_all ho.word.2)]; exact ho.back

def metaBlocks : List TdmMeta → List Block
  | [] => []
  | m :: ms => metaBlock m :: ms.flatMap (fun m => [.loose [], metaBlock m])

theorem metaBlocks_ok {infos : List TdmMeta} (hm : ∀ m ∈ infos, MetaOk m) :
    (metaBlocks infos).flatMap Block.lines = metasLines infos ∧ (metaBlocks infos).flatMap Block.infos = infos ∧
      (metaBlocks infos).flatMap Block.obs = [] ∧ (∀ b ∈ metaBlocks infos, b.Ok) ∧ (∀ l ∈ metasLines infos, LineOk l) := by
  cases infos with
  | nil => exact ⟨rfl, rfl, rfl, by simp [metaBlocks], by simp [metasLines]⟩
  | cons m infos =>
    have loose : (Block.loose []).Ok := Or.inl (Or.inl (Or.inl rfl))
    have rest : (infos.flatMap (fun m => [Block.loose [], metaBlock m])).flatMap Block.lines = infos.flatMap (fun m => [] :: metaLines m) ∧
        (infos.flatMap (fun m => [Block.loose [], metaBlock m])).flatMap Block.infos = infos ∧
        (infos.flatMap (fun m => [Block.loose [], metaBlock m])).flatMap Block.obs = [] ∧
        (∀ b ∈ infos.flatMap (fun m => [Block.loose [], metaBlock m]), b.Ok) ∧
        (∀ l ∈ infos.flatMap (fun m => [] :: metaLines m), LineOk l) := by
      have hm' : ∀ x ∈ infos, MetaOk x := fun x hx => hm x (by simp [hx])
      clear hm
      induction infos with
      | nil => simp
      | cons x infos ih =>
        obtain ⟨i1, i2, i3, i4, i5⟩ := ih (fun y hy => hm' y (by simp [hy]))
        have hx := hm' x (by simp)
        refine ⟨?_, ?_, ?_, ?_, ?_⟩
        · rw [List.flatMap_cons, List.flatMap_append, i1, List.flatMap_cons]
          simp [Block.lines, ← metaBlock_lines]
        · rw [List.flatMap_cons, List.flatMap_append, i2]
          simp [Block.infos, metaBlock]
        · rw [List.flatMap_cons, List.flatMap_append, i3]
          simp [Block.obs, metaBlock]
        · intro b hb
          rw [List.flatMap_cons] at hb
          simp only [List.mem_append, List.mem_cons, List.not_mem_nil, or_false] at hb
          rcases hb with (rfl | rfl) | hb
          · exact loose
          · exact metaBlock_ok hx
          · exact i4 b hb
        · intro l hl
          rw [List.flatMap_cons] at hl
          simp only [List.mem_append, List.mem_cons] at hl
          rcases hl with (rfl | hl) | hl
          · exact ⟨by decide, by decide⟩
          · exact metaLines_ok hx l hl
          · exact i5 l hl
    obtain ⟨i1, i2, i3, i4, i5⟩ := rest
    refine ⟨?_, ?_, ?_, ?_, ?_⟩
    · simp only [metaBlocks, List.flatMap_cons, i1, metaBlock_lines, metasLines]
    · simp only [metaBlocks, List.flatMap_cons, i2]; rfl
    · simp only [metaBlocks, List.flatMap_cons, i3]; rfl
    · intro b hb
      rcases List.mem_cons.mp hb with rfl | hb
      · exact metaBlock_ok (hm m (by simp))
      · exact i4 b hb
    · intro l hl
      rcases List.mem_append.mp hl with hl | hl
      · exact metaLines_ok (hm m (by simp)) l hl
      · exact i5 l hl

/-- Writing a tracking data message and reading the text gives the message back: the metadata and the observations,
in their order, without any change. -/
theorem tdm_round_trip {disp : F64 → Str} {msg : Tdm} (hm : ∀ m ∈ msg.infos, MetaOk m) (ho : ∀ o ∈ msg.obs, ObsOk disp o) :
    readTdm (writeTdm disp msg) = .ok msg := by
  obtain ⟨infos, obs⟩ := msg
  dsimp only at hm ho
  let bs : List Block := .loose "CCSDS_TDM_VERS = 1.0".toList :: (metaBlocks infos ++
    [.loose [], .data "DATA_START".toList (obsBody disp obs) "DATA_STOP".toList obs])
  obtain ⟨j1, j2, j3, j4, j5⟩ := metaBlocks_ok hm
  obtain ⟨k1, k2⟩ := obsBody_ok ho
  have hlines : lines (writeTdm disp ⟨infos, obs⟩) = bs.flatMap Block.lines := by
    unfold writeTdm
    rw [lines_unlines]
    · simp only [bs, List.flatMap_cons, List.flatMap_append, j1, List.flatMap_nil, Block.lines, List.append_nil, List.singleton_append, List.append_assoc]
      have : (obsBody disp obs).map Prod.fst = obs.map (obsLine disp) := by
        unfold obsBody
        simp [Function.comp_def]
      rw [this]
    · intro l hl
      simp only [List.mem_cons, List.mem_append, List.not_mem_nil, or_false] at hl
      rcases hl with rfl | hl | rfl | rfl | hl | rfl
      · exact ⟨by decide, by decide⟩
      · exact j5 l hl
      · exact ⟨by decide, by decide⟩
      · exact ⟨by decide, by decide⟩
      · obtain ⟨o, hom, rfl⟩ := List.mem_map.mp hl
        rw [obs_line, ← List.append_assoc]
        apply lineOk_field _ (obs_text_carried (ho o hom))
        intro hn
        rcases List.mem_append.mp hn with hn | hn
        · exact (keyword_facts (ho o hom)).2.2.2.2.1 hn
        · exact absurd hn (by decide)
      · exact ⟨by decide, by decide⟩
  have hok : ∀ b ∈ bs, b.Ok := by
    intro b hb
    simp only [bs, List.mem_cons, List.mem_append, List.not_mem_nil, or_false] at hb
    rcases hb with rfl | hb | rfl | rfl
    · exact Or.inl (Or.inl (Or.inr (Or.inr (by decide))))
    · exact j4 b hb
    · exact Or.inl (Or.inl (Or.inl rfl))
    · exact ⟨by decide, k1, by decide, k2⟩
  rw [tdm_reads hlines hok]
  have e1 : bs.flatMap Block.infos = infos := by
    simp only [bs, List.flatMap_cons, List.flatMap_append, j2, Block.infos, List.flatMap_nil, List.append_nil, List.nil_append]
  have e2 : bs.flatMap Block.obs = obs := by
    simp only [bs, List.flatMap_cons, List.flatMap_append, j3, Block.obs, List.flatMap_nil, List.append_nil, List.nil_append]
  rw [e1, e2]

/-- A concrete message with two metadata blocks. -/
def sampleTdm : Tdm :=
  ⟨[⟨["STATION A".toList, "SAT".toList], "SEQUENTIAL".toList, "1,2,1".toList, "UTC".toList⟩, ⟨["B".toList], [], [], "TAI".toList⟩],
   [⟨.range, "2024-001T12:00:00 : x".toList, .num (23000 + 1 / 2)⟩, ⟨.other "RECEIVE_FREQ".toList, "2024-001T12:00:01".toList, .num (-3 / 4)⟩]⟩

def sampleDisp : F64 → Str := Sp3.fmtF64 2

example : readTdm (writeTdm sampleDisp sampleTdm) = .ok sampleTdm := by
  apply tdm_round_trip
  · intro m hm
    simp only [sampleTdm, List.mem_cons, List.not_mem_nil, or_false] at hm
    rcases hm with rfl | rfl
    · refine ⟨?_, ⟨⟨by decide, by decide⟩, by decide⟩, ⟨⟨by decide, by decide⟩, by decide⟩, ⟨⟨by decide, by decide⟩, by decide⟩⟩
      intro p hp
      simp only [List.mem_cons, List.not_mem_nil, or_false] at hp
      rcases hp with rfl | rfl <;> exact ⟨⟨by decide, by decide⟩, by decide⟩
    · refine ⟨?_, ⟨⟨by decide, by decide⟩, by decide⟩, ⟨⟨by decide, by decide⟩, by decide⟩, ⟨⟨by decide, by decide⟩, by decide⟩⟩
      intro p hp
      rw [List.mem_singleton.mp hp]
      exact ⟨⟨by decide, by decide⟩, by decide⟩
  · intro o ho
    simp only [sampleTdm, List.mem_cons, List.not_mem_nil, or_false] at ho
    rcases ho with rfl | rfl
    · exact ⟨by simp, ⟨⟨by decide, by decide⟩, by decide⟩, by decide, ⟨Sp3.Props.fmtF64_ne _ _, fun c hc => (Sp3.Props.fmtF64_chars _ _ c hc).2⟩, by decide +kernel⟩
    · refine ⟨?_, ⟨⟨by decide, by decide⟩, by decide⟩, by decide, ⟨Sp3.Props.fmtF64_ne _ _, fun c hc => (Sp3.Props.fmtF64_chars _ _ c hc).2⟩, by decide +kernel⟩
      intro s hs
      cases hs
      exact ⟨by decide, ⟨by decide, by decide⟩, by decide, by decide, by decide, by decide, by decide⟩

/-! ### Disagreements -/

/-- Disagreement: integrated Doppler data are read as instantaneous, and written again under that name. -/
theorem integrated_relabelled (disp : F64 → Str) (e : Str) (x : F64) {v : Str} {o : Obs} (h : dataField "DOPPLER_INTEGRATED".toList v = .ok o)
    (he : o.epoch = e) (hx : o.value = x) :
    obsLine disp o = "DOPPLER_INSTANTANEOUS".toList ++ (" = ".toList ++ (e ++ (" : ".toList ++ disp x))) := by
  rw [← obs_says] at h
  have hk := h.1
  rw [kind_says] at hk
  have : kindOf "DOPPLER_INTEGRATED".toList = .doppler := by decide
  rw [this] at hk
  unfold obsLine
  rw [← hk, he, hx]
  rfl

example : dataField "DOPPLER_INTEGRATED".toList "2024-001T12:00:00 : 1.5".toList = .ok ⟨.doppler, "2024-001T12:00:00".toList, .num (3 / 2)⟩ := by decide +kernel

/-- Disagreement: which metadata an observation belongs to is lost. The same tracks attributed to the other station read as the same message. -/
theorem segments_merged :
    readTdm "META_START\nPARTICIPANT_1 = A\nMETA_STOP\nDATA_START\nRANGE = t : 1\nDATA_STOP\nMETA_START\nPARTICIPANT_1 = B\nMETA_STOP\nDATA_START\nRANGE = u : 2\nDATA_STOP\n".toList =
    readTdm "META_START\nPARTICIPANT_1 = A\nMETA_STOP\nMETA_START\nPARTICIPANT_1 = B\nMETA_STOP\nDATA_START\nRANGE = t : 1\nRANGE = u : 2\nDATA_STOP\n".toList := by
  decide +kernel

/-- Disagreement, for every document: where the data blocks stand among the metadata blocks makes no difference. -/
theorem placement_lost {text text' : Str} {bs bs' : List Block} (hl : lines text = bs.flatMap Block.lines) (hl' : lines text' = bs'.flatMap Block.lines)
    (h : ∀ b ∈ bs, b.Ok) (h' : ∀ b ∈ bs', b.Ok) (hi : bs.flatMap Block.infos = bs'.flatMap Block.infos) (ho : bs.flatMap Block.obs = bs'.flatMap Block.obs) :
    readTdm text = readTdm text' := by
  rw [tdm_reads hl h, tdm_reads hl' h', hi, ho]

/-- Disagreement: the lines of the standard, `keyword = epoch value`, are refused. -/
theorem standard_refused {k v : Str} (h : ∀ a b, v ≠ a ++ (" : ".toList ++ b)) : dataField k v = .err .separator := by
  unfold dataField
  rcases hr : rfindSep v with _ | ⟨a, b⟩
  · rfl
  · exact absurd (rfind_split hr) (h a b)

example : readTdm "CCSDS_TDM_VERS = 1.0\nMETA_START\nTIME_SYSTEM = UTC\nMETA_STOP\nDATA_START\nTRANSMIT_FREQ_1 = 2005-159T17:41:00 32023442781.733\nDATA_STOP\n".toList =
    .err .separator := by decide +kernel

/-- Disagreement: nothing is mandatory, an unopened block counts as metadata, an observable whose name begins like a comment
disappears, and one without an epoch cannot be read back. -/
theorem tdm_lenient :
    readTdm [] = .ok ⟨[], []⟩ ∧ readTdm "META_STOP\n".toList = .ok ⟨[newMeta], []⟩ ∧
    readTdm (writeTdm sampleDisp ⟨[], [⟨.other "COMMENTARY".toList, "t".toList, .num 1⟩]⟩) = .ok ⟨[], []⟩ ∧
    readTdm (writeTdm sampleDisp ⟨[], [⟨.range, [], .num 1⟩]⟩) = .err .separator ∧
    readTdm (writeTdm sampleDisp ⟨[], [⟨.other "RANGE".toList, "t".toList, .num 1⟩]⟩) = .ok ⟨[], [⟨.range, "t".toList, .num 1⟩]⟩ := by
  decide +kernel

end Verif.Kvn.Props
