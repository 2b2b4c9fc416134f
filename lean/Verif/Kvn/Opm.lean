import Verif.Kvn.Model
import Verif.Sp3.Write

/-
Reading and writing orbit parameter messages.
-/
namespace Verif.Kvn.Props
open Verif.Text Verif.Kvn

/-! ### Specification -/

/-- The line gives `key` the value `val`: it is no comment, and reads `key = val` up to blanks around both. -/
def Assigns (raw key val : Str) : Prop :=
  "COMMENT".toList.isPrefixOf (trim raw) = false ∧
    ∃ a b, trim raw = a ++ '=' :: b ∧ '=' ∉ a ∧ key = trim a ∧ val = trim b

/-- No line gives `key` a value. -/
def Silent (raws : List Str) (key : String) : Prop := ∀ r ∈ raws, ∀ v, ¬ Assigns r key.toList v

/-- The last line about `key` gives it the value `val`. -/
def Says (raws : List Str) (key : String) (val : Str) : Prop :=
  ∃ pre raw post, raws = pre ++ raw :: post ∧ Assigns raw key.toList val ∧ Silent post key

/-- The last line about `key` gives it the number `x`. -/
def Number (raws : List Str) (key : String) (x : F64) : Prop := ∃ t, Says raws key t ∧ parseFloat t = some x

/-- The value of `key`, or the default when there is none. -/
def Default (raws : List Str) (key : String) (dflt val : Str) : Prop :=
  Says raws key val ∨ Silent raws key ∧ val = dflt

/-- What a document says about a message. -/
structure Means (raws : List Str) (msg : Opm) : Prop where
  name : Says raws "OBJECT_NAME" msg.info.objectName
  ident : Default raws "OBJECT_ID" [] msg.info.objectId
  center : Default raws "CENTER_NAME" "EARTH".toList msg.info.centerName
  frame : Default raws "REF_FRAME" "EME2000".toList msg.info.refFrame
  time : Default raws "TIME_SYSTEM" "UTC".toList msg.info.timeSystem
  epoch : Says raws "EPOCH" msg.state.epoch
  x : Number raws "X" msg.state.x
  y : Number raws "Y" msg.state.y
  z : Number raws "Z" msg.state.z
  vx : Number raws "X_DOT" msg.state.vx
  vy : Number raws "Y_DOT" msg.state.vy
  vz : Number raws "Z_DOT" msg.state.vz
  kepler : match msg.kepler with
    | none => Silent raws "SEMI_MAJOR_AXIS"
    | some k => Number raws "SEMI_MAJOR_AXIS" k.sma ∧ Number raws "ECCENTRICITY" k.ecc ∧ Number raws "INCLINATION" k.inc ∧
        Number raws "RA_OF_ASC_NODE" k.node ∧ Number raws "ARG_OF_PERICENTER" k.peri ∧ Number raws "TRUE_ANOMALY" k.anomaly

/-- Text that a line can carry: no blanks at its ends and no line feed. -/
def Carried (s : Str) : Prop := Tight s ∧ '\n' ∉ s

/-- The number read is the number written to within `e`; infinities and not-a-number come back. -/
def Near (e : ℚ) (a b : F64) : Prop :=
  match a with
  | .num q => ∃ q', b = .num q' ∧ |q' - q| ≤ e
  | other => b = other

/-! ### Reading -/

theorem bind_ok_iff {α β : Type} {x : R α} {f : α → R β} {b : β} : x.bind f = .ok b ↔ ∃ a, x = .ok a ∧ f a = .ok b := by
  cases x <;> simp [Res.bind]

theorem ofOption_ok {α : Type} {e : Err} {o : Option α} {a : α} : Res.ofOption e o = .ok a ↔ o = some a := by
  cases o <;> simp [Res.ofOption]

theorem assigns_line {raw k v : Str} (h : Assigns raw k v) (m : Map) : opmLine m raw = insert m k v := by
  obtain ⟨hc, a, b, ht, ha, rfl, rfl⟩ := h
  have he : '=' ∈ trim raw := by rw [ht]; simp
  unfold opmLine
  have : ¬ (trim raw = [] ∨ "COMMENT".toList.isPrefixOf (trim raw) = true ∨ trim raw = "META_START".toList ∨ trim raw = "META_STOP".toList) := by
    rintro (h | h | h | h)
    · rw [h] at he; simp at he
    · rw [hc] at h; simp at h
    · rw [h] at he; exact absurd he (by decide)
    · rw [h] at he; exact absurd he (by decide)
  simp only [if_neg this]
  rw [ht, find1_append ha]

theorem find1_some {c : Char} {s a b : Str} (h : find1 c s = some (a, b)) : s = a ++ c :: b ∧ c ∉ a := by
  induction s generalizing a with
  | nil => simp [find1] at h
  | cons x xs ih =>
    unfold find1 at h
    split at h
    · rename_i hx
      simp only [Option.some.injEq, Prod.mk.injEq] at h
      obtain ⟨rfl, rfl⟩ := h
      subst hx
      simp
    · rename_i hx
      rcases hf : find1 c xs with _ | ⟨a', b'⟩
      · rw [hf] at h; simp at h
      · rw [hf] at h
        simp only [Option.map_some, Option.some.injEq, Prod.mk.injEq] at h
        obtain ⟨rfl, rfl⟩ := h
        obtain ⟨h1, h2⟩ := ih hf
        exact ⟨by rw [h1]; rfl, by simp [h2, Ne.symm hx]⟩

theorem silent_line {raw : Str} (h : ∀ k v, ¬ Assigns raw k v) (m : Map) : opmLine m raw = m := by
  unfold opmLine
  dsimp only
  split
  · rfl
  · rename_i hn
    rcases hf : find1 '=' (trim raw) with _ | ⟨a, b⟩
    · rfl
    · obtain ⟨h1, h2⟩ := find1_some hf
      exact absurd ⟨Bool.eq_false_iff.mpr (fun hc => hn (Or.inr (Or.inl hc))), a, b, h1, h2, rfl, rfl⟩ (h (trim a) (trim b))

theorem assigns_det {raw k v k' v' : Str} (h : Assigns raw k v) (h' : Assigns raw k' v') : k = k' ∧ v = v' := by
  obtain ⟨_, a, b, ht, ha, rfl, rfl⟩ := h
  obtain ⟨_, a', b', ht', ha', rfl, rfl⟩ := h'
  have := find1_append ha b
  rw [← ht, ht', find1_append ha'] at this
  simp only [Option.some.injEq, Prod.mk.injEq] at this
  rw [this.1, this.2]
  exact ⟨rfl, rfl⟩

theorem silent_append {a : List Str} {r : Str} {key : String} :
    Silent (a ++ [r]) key ↔ Silent a key ∧ ∀ v, ¬ Assigns r key.toList v := by
  unfold Silent
  constructor
  · intro h
    exact ⟨fun x hx => h x (by simp [hx]), h r (by simp)⟩
  · rintro ⟨h1, h2⟩ x hx
    rcases List.mem_append.mp hx with hx | hx
    · exact h1 x hx
    · rw [List.mem_singleton.mp hx]; exact h2

theorem says_append {a : List Str} {r : Str} {key : String} {v : Str} :
    Says (a ++ [r]) key v ↔ Assigns r key.toList v ∨ Says a key v ∧ ∀ v, ¬ Assigns r key.toList v := by
  constructor
  · rintro ⟨pre, raw, post, he, hs, hq⟩
    rcases post.eq_nil_or_concat with rfl | ⟨post, l, rfl⟩
    · have := List.append_inj' he (by simp)
      left
      have h2 := this.2
      simp only [List.cons.injEq, and_true] at h2
      rw [h2]; exact hs
    · have he' : a ++ [r] = (pre ++ raw :: post) ++ [l] := by rw [he]; simp
      have := List.append_inj' he' (by simp)
      have h2 := this.2
      simp only [List.cons.injEq, and_true] at h2
      rw [List.concat_eq_append, silent_append] at hq
      right
      exact ⟨⟨pre, raw, post, this.1, hs, hq.1⟩, h2 ▸ hq.2⟩
  · rintro (h | ⟨⟨pre, raw, post, rfl, hs, hq⟩, hn⟩)
    · exact ⟨a, r, [], rfl, h, fun x hx => by simp at hx⟩
    · exact ⟨pre, raw, post ++ [r], by simp, hs, silent_append.mpr ⟨hq, hn⟩⟩

/-- The table after all lines. -/
theorem table_says (raws : List Str) (key : String) :
    (∀ v, raws.foldl opmLine (fun _ => none) key.toList = some v ↔ Says raws key v) ∧
    (raws.foldl opmLine (fun _ => none) key.toList = none ↔ Silent raws key) := by
  induction raws using List.reverseRecOn with
  | nil =>
    refine ⟨fun v => ?_, by simp [Silent]⟩
    simp only [List.foldl_nil, reduceCtorEq, false_iff]
    rintro ⟨pre, raw, post, h, _⟩
    simp at h
  | append_singleton a r ih =>
    obtain ⟨ih1, ih2⟩ := ih
    rw [List.foldl_append, List.foldl_cons, List.foldl_nil]
    simp only [says_append, silent_append]
    by_cases hA : ∃ k v, Assigns r k v
    · obtain ⟨k, w, hA⟩ := hA
      rw [assigns_line hA]
      unfold insert
      by_cases hk : key.toList = k
      · rw [if_pos hk]
        subst hk
        constructor
        · intro v
          constructor
          · rintro h; left; cases h; exact hA
          · rintro (h | ⟨_, h⟩)
            · rw [(assigns_det hA h).2]
            · exact absurd hA (h w)
        · simp only [reduceCtorEq, false_iff]
          rintro ⟨_, h⟩
          exact h w hA
      · rw [if_neg hk]
        have hn : ∀ v, ¬ Assigns r key.toList v := fun v h => hk (assigns_det hA h).1.symm
        refine ⟨fun v => ?_, ?_⟩
        · rw [ih1]
          exact ⟨fun h => Or.inr ⟨h, hn⟩, fun h => h.elim (fun h => absurd h (hn v)) And.left⟩
        · rw [ih2]
          exact ⟨fun h => ⟨h, hn⟩, And.left⟩
    · have hn : ∀ k v, ¬ Assigns r k v := fun k v h => hA ⟨k, v, h⟩
      rw [silent_line hn]
      refine ⟨fun v => ?_, ?_⟩
      · rw [ih1]
        exact ⟨fun h => Or.inr ⟨h, hn _⟩, fun h => h.elim (fun h => absurd h (hn _ v)) And.left⟩
      · rw [ih2]
        exact ⟨fun h => ⟨h, hn _⟩, And.left⟩

theorem table_default (raws : List Str) (key : String) (d v : Str) :
    (raws.foldl opmLine (fun _ => none) key.toList).getD d = v ↔ Default raws key d v := by
  obtain ⟨h1, h2⟩ := table_says raws key
  unfold Default
  rw [← h1, ← h2]
  rcases raws.foldl opmLine (fun _ => none) key.toList with _ | t
  · simp [eq_comm]
  · simp

theorem table_number (raws : List Str) (key : String) (x : F64) :
    getf (raws.foldl opmLine (fun _ => none)) key = .ok x ↔ Number raws key x := by
  obtain ⟨h1, _⟩ := table_says raws key
  unfold getf get Number
  simp only [bind_ok_iff, ofOption_ok, h1]

/-- An orbit parameter message is read exactly when the document gives a name, an epoch and six numbers, and, if it
gives a semi-major axis, the other five elements; the last line about a keyword counts, and the result is what the
document says. There is no other outcome than a message or an error. -/
theorem opm_reads (text : Str) :
    (∀ msg, readOpm text = .ok msg ↔ Means (lines text) msg) ∧ readOpm text ≠ .panic := by
  constructor
  · intro msg
    unfold readOpm opmBuild
    obtain ⟨hn, _⟩ := table_says (lines text) "OBJECT_NAME"
    obtain ⟨he, _⟩ := table_says (lines text) "EPOCH"
    obtain ⟨_, hs⟩ := table_says (lines text) "SEMI_MAJOR_AXIS"
    have nb := table_number (lines text)
    have df := table_default (lines text)
    unfold opmKepler
    generalize (lines text).foldl opmLine (fun _ => none) = m at *
    simp only [bind_ok_iff, get, ofOption_ok, hn, he, nb]
    constructor
    · rintro ⟨name, h1, epoch, h2, x, h3, y, h4, z, h5, vx, h6, vy, h7, vz, h8, k, hk, hm⟩
      cases hm
      constructor <;> dsimp only
      · exact h1
      · exact (df _ _ _).mp rfl
      · exact (df _ _ _).mp rfl
      · exact (df _ _ _).mp rfl
      · exact (df _ _ _).mp rfl
      · exact h2
      · exact h3
      · exact h4
      · exact h5
      · exact h6
      · exact h7
      · exact h8
      · split at hk
        · simp only [bind_ok_iff, nb] at hk
          obtain ⟨a, k1, e, k2, i, k3, n, k4, p, k5, t, k6, hk⟩ := hk
          cases hk
          exact ⟨k1, k2, k3, k4, k5, k6⟩
        · rename_i hno
          cases hk
          exact hs.mp (by simpa using hno)
    · intro h
      refine ⟨_, h.name, _, h.epoch, _, h.x, _, h.y, _, h.z, _, h.vx, _, h.vy, _, h.vz, msg.kepler, ?_, ?_⟩
      · have hk := h.kepler
        rcases hmk : msg.kepler with _ | k
        · rw [hmk] at hk
          rw [hs.mpr hk]
          rfl
        · rw [hmk] at hk
          obtain ⟨k1, k2, k3, k4, k5, k6⟩ := hk
          have hyes : (m "SEMI_MAJOR_AXIS".toList).isSome = true := by
            rcases hq : m "SEMI_MAJOR_AXIS".toList with _ | t
            · have := hs.mp hq
              obtain ⟨t, ⟨pre, raw, post, h1, h2, _⟩, _⟩ := k1
              exact absurd h2 (this raw (by rw [h1]; simp) t)
            · rfl
          rw [if_pos hyes]
          simp only [bind_ok_iff, nb]
          exact ⟨_, k1, _, k2, _, k3, _, k4, _, k5, _, k6, rfl⟩
      · rw [(df _ _ _).mpr h.ident, (df _ _ _).mpr h.center, (df _ _ _).mpr h.frame, (df _ _ _).mpr h.time]
  · have g : ∀ m k, get m k ≠ .panic := by
      intro m k; unfold get Res.ofOption; split <;> simp
    have gf : ∀ m k, getf m k ≠ .panic := by
      intro m k; unfold getf
      rcases hg : get m k with a | e | _
      · simp only [Res.bind]; unfold Res.ofOption; split <;> simp
      · simp [Res.bind]
      · exact absurd hg (g m k)
    have b : ∀ {α β : Type} {x : R α} {f : α → R β}, x ≠ .panic → (∀ a, f a ≠ .panic) → x.bind f ≠ .panic := by
      intro α β x f hx hf
      cases x with
      | ok a => exact hf a
      | err e => simp [Res.bind]
      | panic => exact absurd rfl hx
    unfold readOpm opmBuild
    refine b (g _ _) fun _ => b (g _ _) fun _ => b (gf _ _) fun _ => b (gf _ _) fun _ => b (gf _ _) fun _ => b (gf _ _) fun _ =>
      b (gf _ _) fun _ => b (gf _ _) fun _ => b ?_ fun _ => by simp
    unfold opmKepler
    split
    · exact b (gf _ _) fun _ => b (gf _ _) fun _ => b (gf _ _) fun _ => b (gf _ _) fun _ => b (gf _ _) fun _ => b (gf _ _) fun _ => by simp
    · simp

/-! ### Writing and reading back -/

theorem fmt_back (p : Nat) (v : F64) : ∃ w, parseFloat (Sp3.fmtF64 p v) = some w ∧ Near (1 / 2 / 10 ^ p) v w := by
  cases v with
  | num q => exact ⟨_, parseFloat_fmtFixed p q, _, rfl, fixedValue_close p q⟩
  | inf b => cases b <;> exact ⟨_, by simp only [Sp3.fmtF64]; decide, rfl⟩
  | nan => exact ⟨_, by simp only [Sp3.fmtF64]; decide, rfl⟩

theorem fmt_carried (p : Nat) (v : F64) : Carried (Sp3.fmtF64 p v) := by
  have h := Sp3.Props.fmtF64_chars p v
  refine ⟨tight_of_all (fun c hc => (h c hc).2), fun hc => ?_⟩
  exact absurd (h _ hc).2 (by decide)

theorem trimEnd_append {s t : Str} (ht : Tight t) (hne : t ≠ []) : trimEnd (s ++ t) = s ++ t := by
  apply trimEnd_tight
  intro c hc
  rw [List.getLast?_append_of_ne_nil _ hne] at hc
  exact ht.2 c hc

theorem trim_head_append {s t : Str} (hs : s ≠ []) (hh : ∀ c, s.head? = some c → isWs c = false) (ht : Tight t) (hne : t ≠ []) :
    trim (s ++ t) = s ++ t := by
  unfold trim
  rw [trimStart_tight (s := s ++ t), trimEnd_append ht hne]
  intro c hc
  apply hh
  cases s with
  | nil => exact absurd rfl hs
  | cons x xs => simpa using hc

theorem trim_blank (t : Str) (h : Tight t) : trim (' ' :: t) = t := by
  have : ' ' :: t = padLeft ' ' (t.length + 1) t := by
    unfold padLeft
    simp
  rw [this, trim_padLeft h]

/-- A line `KEY   = value` assigns the value. -/
theorem field_assigns {key pad : Str} {v : Str} (hk : Tight key) (hne : key ≠ []) (he : '=' ∉ key) (hpad : ∀ c ∈ pad, c = ' ')
    (hc : "COMMENT".toList.isPrefixOf (key ++ (pad ++ ("=".toList ++ (if v = [] then [] else ' ' :: v)))) = false)
    (hv : Carried v) : Assigns (key ++ (pad ++ ("= ".toList ++ v))) key v := by
  have hpadr : pad = List.replicate pad.length ' ' := List.eq_replicate_of_mem hpad
  have hpe : '=' ∉ pad := fun h => absurd (hpad _ h) (by decide)
  have hkey : key = trim (key ++ pad) := by
    have := trim_padRight hk (key.length + pad.length)
    unfold padRight at this
    rw [show key.length + pad.length - key.length = pad.length by omega, ← hpadr] at this
    exact this.symm
  have ht : trim (key ++ (pad ++ ("= ".toList ++ v))) = key ++ (pad ++ ("=".toList ++ (if v = [] then [] else ' ' :: v))) := by
    by_cases hv0 : v = []
    · subst hv0
      rw [if_pos rfl]
      have e : key ++ (pad ++ ("= ".toList ++ [])) = (key ++ (pad ++ "=".toList)) ++ List.replicate 1 ' ' := by
        simp
      unfold trim
      rw [trimStart_tight, e, trimEnd_replicate, trimEnd_tight]
      · simp
      · intro c hc
        rw [← List.append_assoc, List.getLast?_append_of_ne_nil _ (by decide)] at hc
        have : ("=".toList).getLast? = some '=' := by decide
        rw [this] at hc
        cases hc
        decide
      · intro c hc
        rw [List.head?_append_of_ne_nil _ hne] at hc
        exact hk.1 c hc
    · rw [if_neg hv0]
      have e : key ++ (pad ++ ("= ".toList ++ v)) = (key ++ (pad ++ "= ".toList)) ++ v := by simp
      rw [e, trim_head_append (by simp [hne]) (fun c hc => hk.1 c (by rwa [List.head?_append_of_ne_nil _ hne] at hc)) hv.1 hv0]
      simp
  refine ⟨by rw [ht]; exact hc, key ++ pad, (if v = [] then [] else ' ' :: v), by rw [ht]; simp, by simp [he, hpe], hkey, ?_⟩
  split
  · rename_i h0; rw [h0]; rfl
  · rw [trim_blank v hv.1]

theorem eq_not_comment {a b : Str} (h : "COMMENT".toList.isPrefixOf a = false) : "COMMENT".toList.isPrefixOf (a ++ ("=".toList ++ b)) = false := by
  have he : '=' ∉ "COMMENT".toList := by decide
  revert he h
  generalize "COMMENT".toList = p
  intro h he
  induction p generalizing a with
  | nil => simp at h
  | cons x p ih =>
    simp only [List.mem_cons, not_or] at he
    cases a with
    | nil =>
      simp only [List.nil_append]
      show (x :: p).isPrefixOf ('=' :: b) = false
      simp only [List.isPrefixOf, Bool.and_eq_false_iff]
      left
      simpa using Ne.symm he.1
    | cons y a =>
      simp only [List.isPrefixOf, Bool.and_eq_false_iff, List.cons_append] at h ⊢
      rcases h with h | h
      · left; exact h
      · right; exact ih h he.2

/-- The fields of `write_opm`. -/
theorem field_line {key : String} {v : Str} (hk : (∀ c ∈ key.toList, isWs c = false) ∧ key.toList ≠ [] ∧ '=' ∉ key.toList ∧
    "COMMENT".toList.isPrefixOf (padRight 21 key.toList) = false) (hv : Carried v) (m : Map) :
    opmLine m (field key v) = insert m key.toList v := by
  apply assigns_line
  obtain ⟨h1, h2, h3, h4⟩ := hk
  unfold field padRight at *
  rw [List.append_assoc]
  apply field_assigns (tight_of_all h1) h2 h3 (fun c hc => List.eq_of_mem_replicate hc) _ hv
  rw [← List.append_assoc]
  exact eq_not_comment h4

theorem field_ok {key : String} {v : Str} (hk : '\n' ∉ key.toList) (hv : Carried v) : LineOk (field key v) := by
  unfold field padRight
  constructor
  · intro h
    simp only [List.mem_append, List.mem_replicate] at h
    rcases h with (h | h) | h | h
    · exact hk h
    · exact absurd h.2 (by decide)
    · exact absurd h (by decide)
    · exact hv.2 h
  · by_cases h0 : v = []
    · subst h0
      rw [List.append_nil, List.getLast?_append_of_ne_nil _ (by decide)]
      decide
    · rw [← List.append_assoc, List.getLast?_append_of_ne_nil _ h0]
      intro h
      exact absurd (hv.1.2 _ h) (by decide)

/-- The text fields of a message that a document can carry. -/
structure Plain (msg : Opm) : Prop where
  name : Carried msg.info.objectName
  ident : Carried msg.info.objectId
  center : Carried msg.info.centerName
  frame : Carried msg.info.refFrame
  time : Carried msg.info.timeSystem
  epoch : Carried msg.state.epoch

theorem state_ok {msg : Opm} (h : Plain msg) : ∀ l ∈ stateLines msg, LineOk l := by
  unfold stateLines
  simp only [List.forall_mem_cons, List.not_mem_nil, false_imp_iff, implies_true, and_true]
  exact ⟨⟨by decide, by decide⟩, ⟨by decide, by decide⟩, field_ok (by decide) h.name, field_ok (by decide) h.ident,
    field_ok (by decide) h.center, field_ok (by decide) h.frame, field_ok (by decide) h.time, ⟨by decide, by decide⟩, ⟨by decide, by decide⟩,
    field_ok (by decide) h.epoch, field_ok (by decide) (fmt_carried _ _), field_ok (by decide) (fmt_carried _ _),
    field_ok (by decide) (fmt_carried _ _), field_ok (by decide) (fmt_carried _ _), field_ok (by decide) (fmt_carried _ _), field_ok (by decide) (fmt_carried _ _)⟩

theorem kepler_ok (k : Kepler) : ∀ l ∈ keplerLines k, LineOk l := by
  unfold keplerLines
  simp only [List.forall_mem_cons, List.not_mem_nil, false_imp_iff, implies_true, and_true]
  exact ⟨⟨by decide, by decide⟩, field_ok (by decide) (fmt_carried _ _), field_ok (by decide) (fmt_carried _ _),
    field_ok (by decide) (fmt_carried _ _), field_ok (by decide) (fmt_carried _ _), field_ok (by decide) (fmt_carried _ _), field_ok (by decide) (fmt_carried _ _)⟩

theorem plain_line {w : Str} (h : w = [] ∨ w = "META_START".toList ∨ w = "META_STOP".toList) (m : Map) : opmLine m w = m := by
  rcases h with rfl | rfl | rfl <;> unfold opmLine <;> rw [if_pos (by decide)]

theorem version_line (m : Map) : opmLine m "CCSDS_OPM_VERS = 2.0".toList = insert m "CCSDS_OPM_VERS".toList "2.0".toList := by
  apply assigns_line
  exact ⟨by decide, "CCSDS_OPM_VERS ".toList, " 2.0".toList, by decide, by decide, by decide, by decide⟩

/-- Writing a message and reading the text gives the message back: the names, the epoch and whether there are
elements exactly; positions, velocities and the semi-major axis to half a unit of the sixth decimal, the eccentricity of
the seventh, the angles of the fourth. -/
theorem opm_round_trip {msg : Opm} (h : Plain msg) :
    ∃ r, readOpm (writeOpm msg) = .ok r ∧ r.info = msg.info ∧ r.state.epoch = msg.state.epoch ∧
      Near (1 / 2000000) msg.state.x r.state.x ∧ Near (1 / 2000000) msg.state.y r.state.y ∧ Near (1 / 2000000) msg.state.z r.state.z ∧
      Near (1 / 2000000) msg.state.vx r.state.vx ∧ Near (1 / 2000000) msg.state.vy r.state.vy ∧ Near (1 / 2000000) msg.state.vz r.state.vz ∧
      (msg.kepler = none → r.kepler = none) ∧
      (∀ k, msg.kepler = some k → ∃ k', r.kepler = some k' ∧ Near (1 / 2000000) k.sma k'.sma ∧ Near (1 / 20000000) k.ecc k'.ecc ∧
        Near (1 / 20000) k.inc k'.inc ∧ Near (1 / 20000) k.node k'.node ∧ Near (1 / 20000) k.peri k'.peri ∧ Near (1 / 20000) k.anomaly k'.anomaly) := by
  have e6 : (1 : ℚ) / 2 / 10 ^ 6 = 1 / 2000000 := by norm_num
  have e7 : (1 : ℚ) / 2 / 10 ^ 7 = 1 / 20000000 := by norm_num
  have e4 : (1 : ℚ) / 2 / 10 ^ 4 = 1 / 20000 := by norm_num
  obtain ⟨x, px, nx⟩ := fmt_back 6 msg.state.x
  obtain ⟨y, py, ny⟩ := fmt_back 6 msg.state.y
  obtain ⟨z, pz, nz⟩ := fmt_back 6 msg.state.z
  obtain ⟨vx, pvx, nvx⟩ := fmt_back 6 msg.state.vx
  obtain ⟨vy, pvy, nvy⟩ := fmt_back 6 msg.state.vy
  obtain ⟨vz, pvz, nvz⟩ := fmt_back 6 msg.state.vz
  rw [e6] at nx ny nz nvx nvy nvz
  have fl := fun (key : String) (v : Str) (hv : Carried v) (m : Map) hk => field_line (key := key) hk hv m
  have cf := fmt_carried
  have hstate : ∀ m, (stateLines msg).foldl opmLine m = insert (insert (insert (insert (insert (insert (insert (insert (insert (insert (insert (insert
      (insert m "CCSDS_OPM_VERS".toList "2.0".toList) "OBJECT_NAME".toList msg.info.objectName) "OBJECT_ID".toList msg.info.objectId)
      "CENTER_NAME".toList msg.info.centerName) "REF_FRAME".toList msg.info.refFrame) "TIME_SYSTEM".toList msg.info.timeSystem)
      "EPOCH".toList msg.state.epoch) "X".toList (Sp3.fmtF64 6 msg.state.x)) "Y".toList (Sp3.fmtF64 6 msg.state.y))
      "Z".toList (Sp3.fmtF64 6 msg.state.z)) "X_DOT".toList (Sp3.fmtF64 6 msg.state.vx)) "Y_DOT".toList (Sp3.fmtF64 6 msg.state.vy))
      "Z_DOT".toList (Sp3.fmtF64 6 msg.state.vz) := by
    intro m
    unfold stateLines
    simp only [List.foldl_cons, List.foldl_nil]
    rw [version_line, plain_line (w := "META_START".toList) (by simp), plain_line (w := "META_STOP".toList) (by simp), plain_line (w := []) (by simp),
      fl "OBJECT_NAME" _ h.name _ (by decide), fl "OBJECT_ID" _ h.ident _ (by decide), fl "CENTER_NAME" _ h.center _ (by decide),
      fl "REF_FRAME" _ h.frame _ (by decide), fl "TIME_SYSTEM" _ h.time _ (by decide), fl "EPOCH" _ h.epoch _ (by decide),
      fl "X" _ (cf _ _) _ (by decide), fl "Y" _ (cf _ _) _ (by decide), fl "Z" _ (cf _ _) _ (by decide),
      fl "X_DOT" _ (cf _ _) _ (by decide), fl "Y_DOT" _ (cf _ _) _ (by decide), fl "Z_DOT" _ (cf _ _) _ (by decide)]
  rcases hk : msg.kepler with _ | k
  · refine ⟨⟨msg.info, ⟨msg.state.epoch, x, y, z, vx, vy, vz⟩, none⟩, ?_, rfl, rfl, nx, ny, nz, nvx, nvy, nvz, fun _ => rfl, by simp⟩
    unfold readOpm writeOpm
    rw [hk]
    simp only [Option.map_none, Option.getD_none]
    rw [List.append_nil, lines_unlines (state_ok h), hstate]
    unfold opmBuild opmKepler getf get
    simp only [insert, String.toList_inj, String.reduceEq, if_true, if_false, ↓reduceIte, Res.ofOption, Res.bind, px, py, pz, pvx, pvy, pvz,
      Option.getD_some, Option.isSome_none, Bool.false_eq_true]
  · obtain ⟨a, pa, na⟩ := fmt_back 6 k.sma
    obtain ⟨e, pe, ne⟩ := fmt_back 7 k.ecc
    obtain ⟨i, pi, ni⟩ := fmt_back 4 k.inc
    obtain ⟨n, pn, nn⟩ := fmt_back 4 k.node
    obtain ⟨p, pp, np⟩ := fmt_back 4 k.peri
    obtain ⟨t, pt, nt⟩ := fmt_back 4 k.anomaly
    rw [e6] at na
    rw [e7] at ne
    rw [e4] at ni nn np nt
    refine ⟨⟨msg.info, ⟨msg.state.epoch, x, y, z, vx, vy, vz⟩, some ⟨a, e, i, n, p, t⟩⟩, ?_, rfl, rfl, nx, ny, nz, nvx, nvy, nvz, by simp, ?_⟩
    · unfold readOpm writeOpm
      rw [hk]
      simp only [Option.map_some, Option.getD_some]
      rw [lines_unlines (by
        intro l hl
        rcases List.mem_append.mp hl with hl | hl
        · exact state_ok h l hl
        · exact kepler_ok k l hl), List.foldl_append, hstate]
      unfold keplerLines
      simp only [List.foldl_cons, List.foldl_nil]
      rw [plain_line (w := []) (by simp), fl "SEMI_MAJOR_AXIS" _ (cf _ _) _ (by decide), fl "ECCENTRICITY" _ (cf _ _) _ (by decide),
        fl "INCLINATION" _ (cf _ _) _ (by decide), fl "RA_OF_ASC_NODE" _ (cf _ _) _ (by decide), fl "ARG_OF_PERICENTER" _ (cf _ _) _ (by decide),
        fl "TRUE_ANOMALY" _ (cf _ _) _ (by decide)]
      unfold opmBuild opmKepler getf get
      simp only [insert, String.toList_inj, String.reduceEq, if_true, if_false, ↓reduceIte, Res.ofOption, Res.bind, px, py, pz, pvx, pvy, pvz,
        pa, pe, pi, pn, pp, pt, Option.getD_some, Option.isSome_some]
    · intro k' hk'
      cases hk'
      exact ⟨_, rfl, na, ne, ni, nn, np, nt⟩

/-- A concrete message. -/
def sample : Opm :=
  ⟨⟨"SAT = A".toList, [], "EARTH".toList, "EME2000".toList, "UTC".toList⟩,
   ⟨"2024-001T12:00:00.000".toList, .num 7000, .num (1 / 3), .nan, .num 0, .num (75 / 10), .inf true⟩,
   some ⟨.num 7000, .num (1 / 1000), .num 45, .num 10, .num 20, .num 30⟩⟩

theorem sample_plain : Plain sample := by
  constructor <;> exact ⟨⟨by decide, by decide⟩, by decide⟩

example : ∃ r, readOpm (writeOpm sample) = .ok r ∧ r.info = sample.info ∧ Near (1 / 2000000) (.num (1 / 3)) r.state.y := by
  obtain ⟨r, h1, h2, _, _, h3, _⟩ := opm_round_trip sample_plain
  exact ⟨r, h1, h2, h3⟩

example : Means (lines (writeOpm sample)) ⟨sample.info, ⟨sample.state.epoch, .num 7000, .num (333333 / 1000000), .nan, .num 0, .num (15 / 2), .inf true⟩, sample.kepler⟩ := by
  rw [← (opm_reads _).1]
  decide +kernel

/-! ### Disagreements -/

/-- A number comes back exactly when it is a multiple of the last decimal. -/
theorem fixed_exact (p : Nat) (q : ℚ) : fixedValue p q = q ↔ ∃ k : ℤ, q = k / 10 ^ p := by
  have hp : (0 : ℚ) < 10 ^ p := by positivity
  constructor
  · intro h
    unfold fixedValue at h
    refine ⟨(if q < 0 then -1 else 1) * (roundHalfEven (|q| * 10 ^ p) : ℤ), ?_⟩
    by_cases hq : q < 0
    · rw [if_pos hq] at h ⊢; push_cast; linarith
    · rw [if_neg hq] at h ⊢; push_cast; linarith
  · rintro ⟨k, hk⟩
    have h := fixedValue_close p q
    unfold fixedValue at h ⊢
    have hx : |q| * 10 ^ p = ((k.natAbs : ℕ) : ℚ) := by
      rw [hk, abs_div, abs_of_pos hp, div_mul_cancel₀ _ hp.ne', Nat.cast_natAbs, Int.cast_abs]
    have hr : roundHalfEven (|q| * 10 ^ p) = k.natAbs := by
      have hs := roundHalfEven_spec (|q| * 10 ^ p) (by positivity)
      rw [hx] at hs ⊢
      have : |((roundHalfEven (k.natAbs : ℚ) : ℤ) - (k.natAbs : ℤ) : ℤ)| < 1 := by
        have h2 : ((|((roundHalfEven (k.natAbs : ℚ) : ℤ) - (k.natAbs : ℤ) : ℤ)| : ℤ) : ℚ) < 1 := by
          push_cast
          rw [Nat.cast_natAbs, Int.cast_abs] at hs ⊢
          exact lt_of_le_of_lt hs (by norm_num)
        exact_mod_cast h2
      have := Int.abs_lt_one_iff.mp this
      omega
    rw [hr]
    split
    · rename_i hq
      have hk0 : k < 0 := by
        rw [hk] at hq
        have := (div_neg_iff.mp hq)
        rcases this with ⟨_, h2⟩ | ⟨h1, _⟩
        · exact absurd h2 (not_lt.mpr hp.le)
        · exact_mod_cast h1
      rw [hk, Nat.cast_natAbs, abs_of_neg hk0]; push_cast; ring
    · rename_i hq
      have hk0 : 0 ≤ k := by
        by_contra hc
        apply hq
        rw [hk]
        exact div_neg_of_neg_of_pos (by exact_mod_cast not_le.mp hc) hp
      rw [hk, Nat.cast_natAbs, abs_of_nonneg hk0]; push_cast; ring

/-- Disagreement: the messages do not make the round trip losslessly. A finite velocity component comes back exactly only
if it is a whole number of millimetres per second. -/
theorem opm_lossless_iff {msg : Opm} (h : Plain msg) {q : ℚ} (hq : msg.state.vx = .num q) {r : Opm} (hr : readOpm (writeOpm msg) = .ok r) :
    r.state.vx = msg.state.vx ↔ ∃ k : ℤ, q = k / 10 ^ 6 := by
  have hm := ((opm_reads _).1 r).mp hr
  obtain ⟨t, ht, hp⟩ := hm.vx
  have hs : Says (lines (writeOpm msg)) "X_DOT" (Sp3.fmtF64 6 msg.state.vx) := by
    rw [← (table_says _ _).1]
    have cf := fmt_carried
    have fl := fun (key : String) (v : Str) (hv : Carried v) (m : Map) hk => field_line (key := key) hk hv m
    have hall : ∀ l ∈ stateLines msg ++ (msg.kepler.map keplerLines).getD [], LineOk l := by
      intro l hl
      rcases List.mem_append.mp hl with hl | hl
      · exact state_ok h l hl
      · rcases hmk : msg.kepler with _ | k
        · rw [hmk] at hl; simp at hl
        · rw [hmk] at hl; exact kepler_ok k l hl
    unfold writeOpm
    rw [lines_unlines hall, List.foldl_append]
    have hk : ∀ m : Map, ((msg.kepler.map keplerLines).getD []).foldl opmLine m "X_DOT".toList = m "X_DOT".toList := by
      intro m
      rcases msg.kepler with _ | k
      · rfl
      · simp only [Option.map_some, Option.getD_some]
        unfold keplerLines
        simp only [List.foldl_cons, List.foldl_nil]
        rw [plain_line (w := []) (by simp), fl "SEMI_MAJOR_AXIS" _ (cf _ _) _ (by decide), fl "ECCENTRICITY" _ (cf _ _) _ (by decide),
          fl "INCLINATION" _ (cf _ _) _ (by decide), fl "RA_OF_ASC_NODE" _ (cf _ _) _ (by decide), fl "ARG_OF_PERICENTER" _ (cf _ _) _ (by decide),
          fl "TRUE_ANOMALY" _ (cf _ _) _ (by decide)]
        simp only [insert, String.toList_inj, String.reduceEq, ↓reduceIte]
    rw [hk]
    unfold stateLines
    simp only [List.foldl_cons, List.foldl_nil]
    rw [fl "X_DOT" _ (cf _ _) _ (by decide), fl "Y_DOT" _ (cf _ _) _ (by decide), fl "Z_DOT" _ (cf _ _) _ (by decide)]
    simp only [insert, String.toList_inj, String.reduceEq, ↓reduceIte]
  have ht' : t = Sp3.fmtF64 6 msg.state.vx := by
    have h1 := ((table_says _ _).1 _).mpr ht
    have h2 := ((table_says _ _).1 _).mpr hs
    rw [h1] at h2
    exact Option.some.inj h2
  rw [ht', hq] at hp
  simp only [Sp3.fmtF64, parseFloat_fmtFixed, Option.some.injEq] at hp
  rw [hq, ← hp, F64.num.injEq]
  exact fixed_exact 6 q

example : ∃ r, readOpm (writeOpm { sample with state := { sample.state with vx := .num (1 / 3) } }) = .ok r ∧ r.state.vx ≠ .num (1 / 3) := by
  have hp : Plain { sample with state := { sample.state with vx := .num (1 / 3) } } := by
    constructor <;> exact ⟨⟨by decide, by decide⟩, by decide⟩
  obtain ⟨r, hr, _⟩ := opm_round_trip hp
  refine ⟨r, hr, fun h => ?_⟩
  obtain ⟨k, hk⟩ := (opm_lossless_iff hp rfl hr).mp h
  have h3 : (10 ^ 6 : ℚ) = 3 * k := by field_simp at hk; linarith
  have h4 : (10 ^ 6 : ℤ) = 3 * k := by exact_mod_cast h3
  omega

/-- Disagreement: the version keyword is not asked for, the blocks are not looked at, and a value with its unit in
brackets, as the standard allows, is refused. -/
theorem opm_lenient :
    (readOpm "X=1\nY=2\nZ=3\nX_DOT=4\nY_DOT=NaN\nMETA_START\nZ_DOT=6\nEPOCH=\nOBJECT_NAME=\nX=7".toList).bind (fun m => .ok (m.state.x, m.state.vy)) =
      .ok (.num 7, .nan) ∧
    readOpm "CCSDS_OPM_VERS = 2.0\nOBJECT_NAME=A\nEPOCH=B\nX=1 [km]\nY=2 [km]\nZ=3 [km]\nX_DOT=4 [km/s]\nY_DOT=5 [km/s]\nZ_DOT=6 [km/s]\n".toList =
      .err (.number "X") := by
  decide +kernel

theorem bind_err {α β : Type} {x : R α} {f : α → R β} {e : Err} (h : x.bind f = .err e) : x = .err e ∨ ∃ a, f a = .err e := by
  cases x with
  | ok a => exact Or.inr ⟨a, h⟩
  | err e' => left; cases h; rfl
  | panic => cases h

/-- What a refusal says of the document: the keyword named is not given, or its last value is no number. -/
def Named (raws : List Str) (keys : List String) : Err → Prop
  | .missing k => k ∈ keys ∧ Silent raws k
  | .number k => k ∈ keys ∧ ∃ t, Says raws k t ∧ parseFloat t = none
  | _ => False

theorem get_named {raws : List Str} {k : String} {keys : List String} (hk : k ∈ keys) {e : Err} (h : get (raws.foldl opmLine (fun _ => none)) k = .err e) :
    Named raws keys e := by
  obtain ⟨_, h2⟩ := table_says raws k
  unfold get at h
  rcases hm : raws.foldl opmLine (fun _ => none) k.toList with _ | v
  · rw [hm] at h; cases h; exact ⟨hk, h2.mp hm⟩
  · rw [hm] at h; cases h

theorem getf_named {raws : List Str} {k : String} {keys : List String} (hk : k ∈ keys) {e : Err} (h : getf (raws.foldl opmLine (fun _ => none)) k = .err e) :
    Named raws keys e := by
  unfold getf at h
  cases hg : get (raws.foldl opmLine (fun _ => none)) k with
  | err e' => rw [hg] at h; cases h; exact get_named hk hg
  | panic => rw [hg] at h; cases h
  | ok v =>
    rw [hg] at h
    change Res.ofOption (.number k) (parseFloat v) = .err e at h
    rcases hp : parseFloat v with _ | x
    · rw [hp] at h
      cases h
      unfold get at hg
      exact ⟨hk, v, ((table_says raws k).1 v).mp (ofOption_ok.mp hg), hp⟩
    · rw [hp] at h; cases h

/-- C124. A refusal names a keyword the message needs that the document does not give, or whose last value is no number. -/
theorem opm_refusal_named {text : Str} {e : Err} (h : readOpm text = .err e) :
    Named (lines text) ["OBJECT_NAME", "EPOCH", "X", "Y", "Z", "X_DOT", "Y_DOT", "Z_DOT", "SEMI_MAJOR_AXIS", "ECCENTRICITY", "INCLINATION",
      "RA_OF_ASC_NODE", "ARG_OF_PERICENTER", "TRUE_ANOMALY"] e := by
  unfold readOpm opmBuild at h
  rcases bind_err h with h | ⟨_, h⟩
  · exact get_named (by simp) h
  rcases bind_err h with h | ⟨_, h⟩
  · exact get_named (by simp) h
  iterate 6
    rcases bind_err h with h | ⟨_, h⟩
    · exact getf_named (by simp) h
  rcases bind_err h with h | ⟨_, h⟩
  · unfold opmKepler at h
    split at h
    · iterate 6
        rcases bind_err h with h | ⟨_, h⟩
        · exact getf_named (by simp) h
      cases h
    · cases h
  · cases h

/-- A document without an epoch, and one with a word for a number. -/
example : readOpm "OBJECT_NAME = A\nX = 1".toList = .err (.missing "EPOCH") ∧ readOpm "OBJECT_NAME = A\nEPOCH = B\nX = one".toList = .err (.number "X") := by
  decide +kernel

end Verif.Kvn.Props
