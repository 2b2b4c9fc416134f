import Verif.Kvn.Opm

/-
Reading and writing tracking data messages.
-/
namespace Verif.Kvn.Props
open Verif.Text Verif.Kvn

/-! ### Specification -/

/-- A line that carries nothing: blank, a comment, the version. -/
def Idle (raw : Str) : Prop :=
  trim raw = [] ∨ "COMMENT".toList.isPrefixOf (trim raw) = true ∨ "CCSDS_TDM".toList.isPrefixOf (trim raw) = true

/-- A line without effect: idle, or without `=` and none of the four block marks. -/
def Inert (raw : Str) : Prop :=
  Idle raw ∨ '=' ∉ trim raw ∧ trim raw ≠ "META_START".toList ∧ trim raw ≠ "META_STOP".toList ∧
    trim raw ≠ "DATA_START".toList ∧ trim raw ≠ "DATA_STOP".toList

/-- A line `key = value`. -/
def Pair (raw k v : Str) : Prop :=
  ¬ Idle raw ∧ ∃ a b, trim raw = a ++ '=' :: b ∧ '=' ∉ a ∧ k = trim a ∧ v = trim b

/-- Lines with what they carry. -/
abbrev Body := List (Str × Option (Str × Str))

def BodyOk (b : Body) : Prop :=
  ∀ l ∈ b, match l.2 with
    | none => Inert l.1
    | some (k, v) => Pair l.1 k v

def pairs (b : Body) : List (Str × Str) := b.filterMap Prod.snd

/-- The value given last. -/
def LastOr (kvs : List (Str × Str)) (key : String) (v : Str) : Prop :=
  (∃ pre post, kvs = pre ++ (key.toList, v) :: post ∧ ∀ p ∈ post, p.1 ≠ key.toList) ∨ (∀ p ∈ kvs, p.1 ≠ key.toList) ∧ v = []

/-- What the lines of a metadata block say. -/
structure MetaSays (kvs : List (Str × Str)) (m : TdmMeta) : Prop where
  participants : m.participants = (kvs.filter (fun p => "PARTICIPANT_".toList.isPrefixOf p.1)).map Prod.snd
  mode : LastOr kvs "MODE" m.mode
  path : LastOr kvs "PATH" m.path
  time : LastOr kvs "TIME_SYSTEM" m.timeSystem

/-- The observable of a keyword. -/
def KindSays (kw : Str) : Kind → Prop
  | .range => kw = "RANGE".toList
  | .doppler => kw = "DOPPLER_INSTANTANEOUS".toList ∨ kw = "DOPPLER_INTEGRATED".toList
  | .angle1 => kw = "ANGLE_1".toList
  | .angle2 => kw = "ANGLE_2".toList
  | .other s => s = kw ∧ kw ∉ ["RANGE", "DOPPLER_INSTANTANEOUS", "DOPPLER_INTEGRATED", "ANGLE_1", "ANGLE_2"].map String.toList

/-- What a line of a data block says: the epoch, and after the last ` : ` the value. -/
def ObsSays (kv : Str × Str) (o : Obs) : Prop :=
  KindSays kv.1 o.kind ∧ ∃ e s, kv.2 = e ++ (" : ".toList ++ s) ∧ (∀ e' s', kv.2 = e' ++ (" : ".toList ++ s') → e'.length ≤ e.length) ∧
    o.epoch = trim e ∧ parseFloat (trim s) = some o.value

/-- The parts of a document. -/
inductive Block where
  | info (start : Str) (body : Body) (stop : Str) (m : TdmMeta)
  | data (start : Str) (body : Body) (stop : Str) (os : List Obs)
  | loose (raw : Str)

def Block.lines : Block → List Str
  | .info a b c _ => a :: (b.map Prod.fst ++ [c])
  | .data a b c _ => a :: (b.map Prod.fst ++ [c])
  | .loose raw => [raw]

def Block.infos : Block → List TdmMeta
  | .info _ _ _ m => [m]
  | _ => []

def Block.obs : Block → List Obs
  | .data _ _ _ os => os
  | _ => []

def Block.Ok : Block → Prop
  | .info a b c m => trim a = "META_START".toList ∧ BodyOk b ∧ trim c = "META_STOP".toList ∧ MetaSays (pairs b) m
  | .data a b c os => trim a = "DATA_START".toList ∧ BodyOk b ∧ trim c = "DATA_STOP".toList ∧ List.Forall₂ ObsSays (pairs b) os
  | .loose raw => Inert raw ∨ ∃ k v, Pair raw k v

/-! ### The separator -/

theorem rfind_split {s a b : Str} (h : rfindSep s = some (a, b)) : s = a ++ (" : ".toList ++ b) := by
  induction s generalizing a with
  | nil => simp [rfindSep] at h
  | cons x xs ih =>
    unfold rfindSep at h
    rcases hr : rfindSep xs with _ | ⟨a', b'⟩
    · rw [hr] at h
      dsimp only at h
      split at h
      · rename_i hp
        simp only [Option.some.injEq, Prod.mk.injEq] at h
        obtain ⟨rfl, rfl⟩ := h
        obtain ⟨t, ht⟩ := List.isPrefixOf_iff_prefix.mp hp
        rw [← ht]
        simp
      · simp at h
    · rw [hr] at h
      simp only [Option.some.injEq, Prod.mk.injEq] at h
      obtain ⟨rfl, rfl⟩ := h
      rw [List.cons_append, ← ih hr]

theorem rfind_none {s : Str} (h : rfindSep s = none) (a b : Str) : s ≠ a ++ (" : ".toList ++ b) := by
  induction s generalizing a with
  | nil => simp
  | cons x xs ih =>
    unfold rfindSep at h
    rcases hr : rfindSep xs with _ | ⟨a', b'⟩
    · rw [hr] at h
      dsimp only at h
      split at h
      · simp at h
      · rename_i hp
        intro he
        cases a with
        | nil => exact hp (List.isPrefixOf_iff_prefix.mpr ⟨b, he.symm⟩)
        | cons y a =>
          simp only [List.cons_append, List.cons.injEq] at he
          exact ih hr a he.2
    · rw [hr] at h; simp at h

theorem rfind_last {s a b a' b' : Str} (h : rfindSep s = some (a, b)) (he : s = a' ++ (" : ".toList ++ b')) : a'.length ≤ a.length := by
  induction s generalizing a a' with
  | nil => simp [rfindSep] at h
  | cons x xs ih =>
    unfold rfindSep at h
    rcases hr : rfindSep xs with _ | ⟨c, d⟩
    · cases a' with
      | nil => simp
      | cons y a' =>
        simp only [List.cons_append, List.cons.injEq] at he
        exact absurd he.2 (rfind_none hr a' b')
    · rw [hr] at h
      simp only [Option.some.injEq, Prod.mk.injEq] at h
      obtain ⟨rfl, rfl⟩ := h
      cases a' with
      | nil => simp
      | cons y a' =>
        simp only [List.cons_append, List.cons.injEq] at he
        have := ih hr he.2
        simp only [List.length_cons]
        omega

theorem rfind_exact {s e t : Str} (h : s = e ++ (" : ".toList ++ t)) (hl : ∀ e' s', s = e' ++ (" : ".toList ++ s') → e'.length ≤ e.length) :
    rfindSep s = some (e, t) := by
  rcases hr : rfindSep s with _ | ⟨a, b⟩
  · exact absurd h (rfind_none hr e t)
  · have h1 := rfind_split hr
    have h2 := rfind_last hr h
    have h3 := hl a b h1
    have : e ++ (" : ".toList ++ t) = a ++ (" : ".toList ++ b) := by rw [← h, ← h1]
    have h4 := List.append_inj this (by omega)
    obtain ⟨rfl, h5⟩ := h4
    rw [List.append_cancel_left h5]

/-! ### Reading -/

theorem kind_says (kw : Str) (k : Kind) : KindSays kw k ↔ kindOf kw = k := by
  unfold kindOf
  by_cases h1 : kw = "RANGE".toList
  · subst h1; rw [if_pos rfl]; cases k <;> simp [KindSays]
  rw [if_neg h1]
  by_cases h2 : kw = "DOPPLER_INSTANTANEOUS".toList ∨ kw = "DOPPLER_INTEGRATED".toList
  · rw [if_pos h2]
    rcases h2 with rfl | rfl <;> cases k <;> simp [KindSays]
  rw [if_neg h2]
  by_cases h3 : kw = "ANGLE_1".toList
  · subst h3; rw [if_pos rfl]; cases k <;> simp [KindSays]
  rw [if_neg h3]
  by_cases h4 : kw = "ANGLE_2".toList
  · subst h4; rw [if_pos rfl]; cases k <;> simp [KindSays]
  rw [if_neg h4]
  rw [not_or] at h2
  cases k with
  | other s =>
    simp only [KindSays, Kind.other.injEq]
    constructor
    · rintro ⟨h, _⟩; exact h.symm
    · intro h
      refine ⟨h.symm, ?_⟩
      simp only [List.map_cons, List.map_nil, List.mem_cons, List.not_mem_nil, or_false, not_or]
      exact ⟨h1, h2.1, h2.2, h3, h4⟩
  | _ => simp_all [KindSays]

theorem obs_says {k v : Str} {o : Obs} : ObsSays (k, v) o ↔ dataField k v = .ok o := by
  unfold ObsSays dataField
  simp only [kind_says]
  constructor
  · rintro ⟨hk, e, s, h1, h2, h3, h4⟩
    rw [rfind_exact h1 h2]
    simp only [h4, Res.ofOption, Res.bind, hk, ← h3]
  · intro h
    rcases hr : rfindSep v with _ | ⟨e, s⟩
    · rw [hr] at h; simp at h
    · rw [hr] at h
      dsimp only at h
      rw [bind_ok_iff] at h
      obtain ⟨x, hx, ho⟩ := h
      rw [ofOption_ok] at hx
      cases ho
      exact ⟨rfl, e, s, rfind_split hr, fun e' s' he => rfind_last hr he, rfl, hx⟩

theorem tdm_inert {raw : Str} (h : Inert raw) (s : St) : tdmLine s raw = .ok s := by
  unfold tdmLine
  dsimp only
  by_cases hi : Idle raw
  · exact if_pos hi
  · have hi' := hi
    unfold Idle at hi'
    rw [if_neg hi']
    rcases h with h | ⟨he, h1, h2, h3, h4⟩
    · exact absurd h hi
    · rw [if_neg h1, if_neg h2, if_neg h3, if_neg h4, find1_none he]

theorem tdm_pair {raw k v : Str} (h : Pair raw k v) (s : St) : tdmLine s raw =
    match s.mode with
    | .inMeta => .ok { s with cur := metaField s.cur k v }
    | .inData => (dataField k v).bind (fun o => .ok { s with msg := { s.msg with obs := s.msg.obs ++ [o] } })
    | .outside => .ok s := by
  obtain ⟨hi, a, b, ht, ha, rfl, rfl⟩ := h
  have he : '=' ∈ trim raw := by rw [ht]; simp
  have ne : ∀ w : Str, '=' ∉ w → trim raw ≠ w := fun w hw h => hw (h ▸ he)
  unfold tdmLine
  dsimp only
  unfold Idle at hi
  rw [if_neg hi, if_neg (ne _ (by decide)), if_neg (ne _ (by decide)), if_neg (ne _ (by decide)), if_neg (ne _ (by decide))]
  rw [ht, find1_append ha]
  rcases s with ⟨mode, cur, msg⟩
  cases mode <;> rfl

theorem loop_append (s : St) (a b : List Str) : tdmLoop s (a ++ b) = (tdmLoop s a).bind (fun s' => tdmLoop s' b) := by
  induction a generalizing s with
  | nil => rfl
  | cons x a ih =>
    rw [List.cons_append, tdmLoop, tdmLoop]
    rcases tdmLine s x with s' | e | _
    · exact ih s'
    · rfl
    · rfl

theorem meta_loop {b : Body} (h : BodyOk b) (s : St) (hm : s.mode = .inMeta) :
    tdmLoop s (b.map Prod.fst) = .ok { s with cur := (pairs b).foldl (fun m kv => metaField m kv.1 kv.2) s.cur } := by
  induction b generalizing s with
  | nil => rfl
  | cons x b ih =>
    obtain ⟨raw, c⟩ := x
    have hx := h (raw, c) (by simp)
    have hb : BodyOk b := fun l hl => h l (by simp [hl])
    rw [List.map_cons, tdmLoop]
    rcases c with _ | ⟨k, v⟩
    · rw [tdm_inert hx]
      simp only [Res.bind]
      rw [ih hb s hm]
      rfl
    · rw [tdm_pair hx, hm]
      simp only [Res.bind]
      rw [ih hb _ rfl]
      rfl

theorem data_loop {b : Body} {os : List Obs} (h : BodyOk b) (ho : List.Forall₂ ObsSays (pairs b) os) (s : St) (hm : s.mode = .inData) :
    tdmLoop s (b.map Prod.fst) = .ok { s with msg := { s.msg with obs := s.msg.obs ++ os } } := by
  induction b generalizing s os with
  | nil =>
    have : os = [] := by simpa [pairs] using ho
    subst this
    simp [tdmLoop]
  | cons x b ih =>
    obtain ⟨raw, c⟩ := x
    have hx := h (raw, c) (by simp)
    have hb : BodyOk b := fun l hl => h l (by simp [hl])
    rw [List.map_cons, tdmLoop]
    rcases c with _ | ⟨k, v⟩
    · rw [tdm_inert hx]
      simp only [Res.bind]
      exact ih hb ho s hm
    · rw [tdm_pair hx, hm]
      have hp : pairs ((raw, some (k, v)) :: b) = (k, v) :: pairs b := rfl
      rw [hp] at ho
      cases ho with
      | cons h1 h2 =>
        rename_i o os'
        rw [obs_says.mp h1]
        simp only [Res.bind]
        rw [ih hb h2 _ rfl]
        simp

theorem lastOr_append {kvs : List (Str × Str)} {k v : Str} {key : String} {w u : Str} (h : LastOr kvs key w)
    (hu : u = if k = key.toList then v else w) : LastOr (kvs ++ [(k, v)]) key u := by
  by_cases hk : k = key.toList
  · rw [if_pos hk] at hu
    subst hu hk
    exact Or.inl ⟨kvs, [], by simp, by simp⟩
  · rw [if_neg hk] at hu
    subst hu
    rcases h with ⟨pre, post, rfl, hp⟩ | ⟨hp, rfl⟩
    · refine Or.inl ⟨pre, post ++ [(k, v)], by simp, ?_⟩
      intro p hpm
      rcases List.mem_append.mp hpm with hpm | hpm
      · exact hp p hpm
      · rw [List.mem_singleton.mp hpm]; exact hk
    · refine Or.inr ⟨?_, rfl⟩
      intro p hpm
      rcases List.mem_append.mp hpm with hpm | hpm
      · exact hp p hpm
      · rw [List.mem_singleton.mp hpm]; exact hk

theorem lastOr_det {kvs : List (Str × Str)} {key : String} {v w : Str} (h : LastOr kvs key v) (h' : LastOr kvs key w) : v = w := by
  have f : ∀ {v}, LastOr kvs key v → ((kvs.reverse.find? (fun p => decide (p.1 = key.toList))).map Prod.snd).getD [] = v := by
    intro v h
    rcases h with ⟨pre, post, rfl, hp⟩ | ⟨hp, rfl⟩
    · rw [List.reverse_append, List.reverse_cons, List.append_assoc, List.find?_append]
      have : post.reverse.find? (fun p => decide (p.1 = key.toList)) = none := by
        rw [List.find?_eq_none]
        intro x hx
        simpa using hp x (by simpa using hx)
      rw [this]
      simp
    · have : kvs.reverse.find? (fun p => decide (p.1 = key.toList)) = none := by
        rw [List.find?_eq_none]
        intro x hx
        simpa using hp x (by simpa using hx)
      rw [this]
      rfl
  rw [← f h, f h']

theorem prefix_key {k : Str} (h : "PARTICIPANT_".toList.isPrefixOf k = true) : k ≠ "MODE".toList ∧ k ≠ "PATH".toList ∧ k ≠ "TIME_SYSTEM".toList := by
  refine ⟨?_, ?_, ?_⟩ <;> (rintro rfl; revert h; decide)

theorem meta_fold (kvs : List (Str × Str)) : MetaSays kvs (kvs.foldl (fun m kv => metaField m kv.1 kv.2) newMeta) := by
  induction kvs using List.reverseRecOn with
  | nil => exact ⟨rfl, Or.inr ⟨by simp, rfl⟩, Or.inr ⟨by simp, rfl⟩, Or.inr ⟨by simp, rfl⟩⟩
  | append_singleton kvs kv ih =>
    obtain ⟨k, v⟩ := kv
    rw [List.foldl_append, List.foldl_cons, List.foldl_nil]
    generalize kvs.foldl (fun m kv => metaField m kv.1 kv.2) newMeta = m at *
    dsimp only
    have ne1 : "MODE".toList ≠ "PATH".toList := by decide
    have ne2 : "MODE".toList ≠ "TIME_SYSTEM".toList := by decide
    have ne3 : "PATH".toList ≠ "TIME_SYSTEM".toList := by decide
    by_cases hp : "PARTICIPANT_".toList.isPrefixOf k = true
    · obtain ⟨h1, h2, h3⟩ := prefix_key hp
      unfold metaField
      rw [if_pos hp]
      refine ⟨?_, lastOr_append ih.mode (by rw [if_neg h1]), lastOr_append ih.path (by rw [if_neg h2]), lastOr_append ih.time (by rw [if_neg h3])⟩
      rw [List.filter_append, List.map_append, ← ih.participants]
      simp only [List.filter_cons, hp, if_true, List.filter_nil, List.map_cons, List.map_nil]
    · have hpart : (List.filter (fun p => "PARTICIPANT_".toList.isPrefixOf p.1) (kvs ++ [(k, v)])).map Prod.snd = m.participants := by
        rw [List.filter_append, ih.participants, List.map_append]
        simp only [List.filter_cons, hp, List.filter_nil, List.map_nil, List.append_nil, Bool.false_eq_true, if_false]
      unfold metaField
      rw [if_neg hp]
      by_cases h1 : k = "MODE".toList
      · subst h1
        rw [if_pos rfl]
        exact ⟨hpart.symm, lastOr_append ih.mode (by rw [if_pos rfl]), lastOr_append ih.path (by rw [if_neg ne1]), lastOr_append ih.time (by rw [if_neg ne2])⟩
      rw [if_neg h1]
      by_cases h2 : k = "PATH".toList
      · subst h2
        rw [if_pos rfl]
        exact ⟨hpart.symm, lastOr_append ih.mode (by rw [if_neg h1]), lastOr_append ih.path (by rw [if_pos rfl]), lastOr_append ih.time (by rw [if_neg ne3])⟩
      rw [if_neg h2]
      by_cases h3 : k = "TIME_SYSTEM".toList
      · subst h3
        rw [if_pos rfl]
        exact ⟨hpart.symm, lastOr_append ih.mode (by rw [if_neg h1]), lastOr_append ih.path (by rw [if_neg h2]), lastOr_append ih.time (by rw [if_pos rfl])⟩
      rw [if_neg h3]
      exact ⟨hpart.symm, lastOr_append ih.mode (by rw [if_neg h1]), lastOr_append ih.path (by rw [if_neg h2]), lastOr_append ih.time (by rw [if_neg h3])⟩

theorem meta_det {kvs : List (Str × Str)} {m m' : TdmMeta} (h : MetaSays kvs m) (h' : MetaSays kvs m') : m = m' := by
  obtain ⟨a, b, c, d⟩ := m
  obtain ⟨a', b', c', d'⟩ := m'
  obtain ⟨h1, h2, h3, h4⟩ := h
  obtain ⟨k1, k2, k3, k4⟩ := h'
  have e2 := lastOr_det h2 k2
  have e3 := lastOr_det h3 k3
  have e4 := lastOr_det h4 k4
  dsimp only at h1 k1 e2 e3 e4
  rw [h1, k1, e2, e3, e4]

theorem mark_line {raw w : Str} (h : trim raw = w) (hw : w ∈ ["META_START", "META_STOP", "DATA_START", "DATA_STOP"].map String.toList) (s : St) :
    tdmLine s raw = tdmLine s w := by
  have hw' : trim w = w := by
    simp only [List.map_cons, List.map_nil, List.mem_cons, List.not_mem_nil, or_false] at hw
    rcases hw with rfl | rfl | rfl | rfl <;> decide
  unfold tdmLine
  rw [h, hw']

theorem block_loop {b : Block} (h : b.Ok) (s : St) (hm : s.mode = .outside) :
    ∃ cur, tdmLoop s b.lines = .ok ⟨.outside, cur, ⟨s.msg.infos ++ b.infos, s.msg.obs ++ b.obs⟩⟩ := by
  cases b with
  | info a b c m =>
    obtain ⟨h1, h2, h3, h4⟩ := h
    refine ⟨newMeta, ?_⟩
    unfold Block.lines
    rw [tdmLoop, mark_line h1 (by simp)]
    have e : tdmLine s "META_START".toList = .ok { s with mode := .inMeta, cur := newMeta } := rfl
    rw [e]
    simp only [Res.bind]
    rw [loop_append, meta_loop h2 _ rfl]
    simp only [Res.bind]
    rw [tdmLoop, mark_line h3 (by simp), meta_det (meta_fold (pairs b)) h4]
    simp [tdmLoop, Block.infos, Block.obs, Res.bind]
    rfl
  | data a b c os =>
    obtain ⟨h1, h2, h3, h4⟩ := h
    refine ⟨s.cur, ?_⟩
    unfold Block.lines
    rw [tdmLoop, mark_line h1 (by simp)]
    have e : tdmLine s "DATA_START".toList = .ok { s with mode := .inData } := rfl
    rw [e]
    simp only [Res.bind]
    rw [loop_append, data_loop h2 h4 _ rfl]
    simp only [Res.bind]
    rw [tdmLoop, mark_line h3 (by simp)]
    simp [tdmLoop, Block.infos, Block.obs, Res.bind]
    rfl
  | loose raw =>
    refine ⟨s.cur, ?_⟩
    have e : tdmLine s raw = .ok s := by
      rcases h with h | ⟨k, v, h⟩
      · exact tdm_inert h s
      · rw [tdm_pair h, hm]
    unfold Block.lines
    rw [tdmLoop, e]
    simp only [Res.bind, tdmLoop, Block.infos, Block.obs, List.append_nil, ← hm]

theorem blocks_loop {bs : List Block} (h : ∀ b ∈ bs, b.Ok) (s : St) (hm : s.mode = .outside) :
    ∃ cur, tdmLoop s (bs.flatMap Block.lines) = .ok ⟨.outside, cur, ⟨s.msg.infos ++ bs.flatMap Block.infos, s.msg.obs ++ bs.flatMap Block.obs⟩⟩ := by
  induction bs generalizing s with
  | nil => exact ⟨s.cur, by simp [tdmLoop, ← hm]⟩
  | cons b bs ih =>
    obtain ⟨cur, h1⟩ := block_loop (h b (by simp)) s hm
    obtain ⟨cur', h2⟩ := ih (fun x hx => h x (by simp [hx])) ⟨.outside, cur, ⟨s.msg.infos ++ b.infos, s.msg.obs ++ b.obs⟩⟩ rfl
    refine ⟨cur', ?_⟩
    rw [List.flatMap_cons, loop_append, h1]
    simp only [Res.bind]
    rw [h2]
    simp [List.flatMap_cons]

/-- A document made of metadata and data blocks is read as the metadata in their order and the observations in their order. -/
theorem tdm_reads {text : Str} {bs : List Block} (hl : lines text = bs.flatMap Block.lines) (h : ∀ b ∈ bs, b.Ok) :
    readTdm text = .ok ⟨bs.flatMap Block.infos, bs.flatMap Block.obs⟩ := by
  obtain ⟨cur, h1⟩ := blocks_loop h ⟨.outside, newMeta, ⟨[], []⟩⟩ rfl
  unfold readTdm
  rw [hl, h1]
  simp [Res.bind]

/-- A data line whose value has no ` : `, or no number after the last one, makes the whole document fail. -/
theorem tdm_rejects {text : Str} {bs : List Block} {start raw k v : Str} {body : Body} {os : List Obs} {rest : List Str}
    (hl : lines text = bs.flatMap Block.lines ++ (start :: (body.map Prod.fst ++ raw :: rest))) (h : ∀ b ∈ bs, b.Ok)
    (hs : trim start = "DATA_START".toList) (hb : BodyOk body) (ho : List.Forall₂ ObsSays (pairs body) os) (hr : Pair raw k v)
    (hbad : ∀ e s x, v = e ++ (" : ".toList ++ s) → parseFloat (trim s) ≠ some x) :
    (∃ e, readTdm text = .err e) := by
  obtain ⟨cur, h1⟩ := blocks_loop h ⟨.outside, newMeta, ⟨[], []⟩⟩ rfl
  have hd : ∃ e, dataField k v = .err e := by
    unfold dataField
    rcases hf : rfindSep v with _ | ⟨e, s⟩
    · exact ⟨_, rfl⟩
    · dsimp only
      rcases hp : parseFloat (trim s) with _ | x
      · exact ⟨.value, rfl⟩
      · exact absurd hp (hbad e s x (rfind_split hf))
  obtain ⟨e, hd⟩ := hd
  refine ⟨e, ?_⟩
  unfold readTdm
  rw [hl, loop_append, h1]
  simp only [Res.bind]
  rw [tdmLoop, mark_line hs (by simp)]
  have e : ∀ s : St, tdmLine s "DATA_START".toList = .ok { s with mode := .inData } := fun _ => rfl
  rw [e]
  simp only [Res.bind]
  rw [loop_append, data_loop hb ho _ rfl]
  simp only [Res.bind]
  rw [tdmLoop, tdm_pair hr]
  simp only [hd, Res.bind]

end Verif.Kvn.Props
