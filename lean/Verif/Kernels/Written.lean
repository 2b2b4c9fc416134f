import Verif.Kernels.Instruments

/-
Frame kernels as written, from the text to the records.
-/
namespace Verif.Kernels
open Verif.Text Verif.TextKernel Verif.TextKernel.Spec

/-- A constant rotation: nine decimal numbers (digits and value) by rows, and the frame it refers to. -/
structure TkDecl where
  m : Fin 3 → Fin 3 → Nat × ℚ
  relative : Str

/-- A frame as declared. -/
structure Decl where
  id : Int
  name : Str
  cls : Frames.FrameClass
  classId : Int
  center : Int
  tk : Option TkDecl

/-- A number as written, and its value. -/
def entry (p : Nat × ℚ) : Scalar := .real p.1 p.2
def entryValue (p : Nat × ℚ) : F64 := .num (fixedValue (p.1 + 1) p.2)

def assign (k : Str) (rhs : Rhs) : Assign := ⟨k, false, true, false, rhs⟩
def str (s : Str) : Rhs := .one (.str false s)
def int (i : Int) : Rhs := .one (.int i)
def matrixRhs (m : Fin 3 → Fin 3 → Nat × ℚ) : Rhs :=
  .rows [(entry (m 0 0), [entry (m 0 1), entry (m 0 2)]), (entry (m 1 0), [entry (m 1 1), entry (m 1 2)]),
    (entry (m 2 0), [entry (m 2 1), entry (m 2 2)])]

/-- The variables of a rotation. -/
def tkAssigns (i : Int) : Option TkDecl → List Assign
  | none => []
  | some t => [assign (var "TKFRAME_" i "_SPEC") (str "MATRIX".toList),
      assign (var "TKFRAME_" i "_RELATIVE") (str t.relative),
      assign (var "TKFRAME_" i "_MATRIX") (matrixRhs t.m)]

/-- The variables of a frame. -/
def declAssigns (x : Decl) : List Assign :=
  [assign (var "FRAME_" x.id "_NAME") (str x.name),
    assign (var "FRAME_" x.id "_CLASS") (int (classNumber x.cls)),
    assign (var "FRAME_" x.id "_CLASS_ID") (int x.classId),
    assign (var "FRAME_" x.id "_CENTER") (int x.center)] ++ tkAssigns x.id x.tk

/-- Names that can be written. -/
def NameOk (s : Str) : Prop := '\'' ∉ s ∧ '\n' ∉ s ∧ find2 '/' '*' s = none ∧ find2 '+' '=' s = none

structure DeclOk (x : Decl) : Prop where
  id : IsI32 x.id
  classId : IsI32 x.classId
  center : IsI32 x.center
  name : NameOk x.name
  tk : ∀ t, x.tk = some t → x.cls = .twoVector ∧ NameOk t.relative

/-- The record of a declared frame. -/
def recordOf (x : Decl) : FrameSpec :=
  ⟨x.id, upper x.name, x.cls, x.classId, x.center,
    x.tk.map (fun t => ([[entryValue (t.m 0 0), entryValue (t.m 0 1), entryValue (t.m 0 2)],
      [entryValue (t.m 1 0), entryValue (t.m 1 1), entryValue (t.m 1 2)],
      [entryValue (t.m 2 0), entryValue (t.m 2 1), entryValue (t.m 2 2)]], upper t.relative))⟩

/-! ### Keys -/

theorem upper_var {pre suf : String} {i : Int} (h1 : upper pre.toList = pre.toList) (h2 : upper suf.toList = suf.toList) :
    upper (var pre i suf) = var pre i suf := by
  unfold var
  rw [upper_append, upper_append, h1, h2]
  show _ ++ (upper (idStr i) ++ _) = _
  rw [upper_idStr]
  rfl

/-- Two variables with the same prefix are equal only for the same identifier and suffix. -/
theorem var_inj {pre : String} {i j : Int} {s t : String} (hs : ∃ a, s.toList = '_' :: a) (ht : ∃ a, t.toList = '_' :: a)
    (h : var pre i s = var pre j t) : i = j ∧ s.toList = t.toList := by
  obtain ⟨a, ha⟩ := hs
  obtain ⟨b, hb⟩ := ht
  unfold var at h
  have h := List.append_cancel_left h
  have e : idStr i ++ '_' :: a = idStr j ++ '_' :: b := by
    rw [← ha, ← hb]
    exact h
  have f1 := find1_append (under_notin i) a
  rw [e, find1_append (under_notin j) b] at f1
  injection f1 with f1
  injection f1 with f1 f2
  exact ⟨idStr_inj f1.symm, by rw [ha, hb, f2]⟩

theorem var_prefix_ne {i j : Int} {s t : String} : var "FRAME_" i s ≠ var "TKFRAME_" j t := by
  intro h
  unfold var at h
  have := congrArg List.head? h
  simp at this

/-- The keys of a frame. -/
theorem decl_key {x : Decl} {a : Assign} (h : a ∈ declAssigns x) :
    (∃ s ∈ ["_NAME", "_CLASS", "_CLASS_ID", "_CENTER"], a.key = var "FRAME_" x.id s) ∨
    ∃ s ∈ ["_SPEC", "_RELATIVE", "_MATRIX"], a.key = var "TKFRAME_" x.id s := by
  unfold declAssigns at h
  rw [List.mem_append] at h
  rcases h with h | h
  · left
    simp only [List.mem_cons, List.not_mem_nil, or_false] at h
    rcases h with rfl | rfl | rfl | rfl
    · exact ⟨"_NAME", by simp, rfl⟩
    · exact ⟨"_CLASS", by simp, rfl⟩
    · exact ⟨"_CLASS_ID", by simp, rfl⟩
    · exact ⟨"_CENTER", by simp, rfl⟩
  · right
    cases ht : x.tk with
    | none =>
      rw [ht] at h
      cases h
    | some t =>
      rw [ht] at h
      simp only [tkAssigns, List.mem_cons, List.not_mem_nil, or_false] at h
      rcases h with rfl | rfl | rfl
      · exact ⟨"_SPEC", by simp, rfl⟩
      · exact ⟨"_RELATIVE", by simp, rfl⟩
      · exact ⟨"_MATRIX", by simp, rfl⟩

theorem suffix_under {s : String} (h : s ∈ ["_NAME", "_CLASS", "_CLASS_ID", "_CENTER", "_SPEC", "_RELATIVE", "_MATRIX"]) :
    (∃ a, s.toList = '_' :: a) ∧ upper s.toList = s.toList := by
  simp only [List.mem_cons, List.not_mem_nil, or_false] at h
  rcases h with rfl | rfl | rfl | rfl | rfl | rfl | rfl <;> exact ⟨⟨_, rfl⟩, by decide⟩

/-- Keys are in upper case already. -/
theorem decl_upper {x : Decl} {a : Assign} (h : a ∈ declAssigns x) : upper a.key = a.key := by
  rcases decl_key h with ⟨s, hs, e⟩ | ⟨s, hs, e⟩
  · rw [e, upper_var (by decide) (suffix_under (by simp at hs ⊢; tauto)).2]
  · rw [e, upper_var (by decide) (suffix_under (by simp at hs ⊢; tauto)).2]

/-- Equal keys come from the same identifier. -/
theorem decl_same {x y : Decl} {a b : Assign} (ha : a ∈ declAssigns x) (hb : b ∈ declAssigns y) (h : a.key = b.key) :
    x.id = y.id := by
  rcases decl_key ha with ⟨s, hs, e⟩ | ⟨s, hs, e⟩ <;> rcases decl_key hb with ⟨t, ht, f⟩ | ⟨t, ht, f⟩
  · exact (var_inj (suffix_under (by simp at hs ⊢; tauto)).1 (suffix_under (by simp at ht ⊢; tauto)).1
      (e.symm.trans (h.trans f))).1
  · exact absurd (e.symm.trans (h.trans f)) var_prefix_ne
  · exact absurd (f.symm.trans (h.symm.trans e)) var_prefix_ne
  · exact (var_inj (suffix_under (by simp at hs ⊢; tauto)).1 (suffix_under (by simp at ht ⊢; tauto)).1
      (e.symm.trans (h.trans f))).1

theorem decl_nodup (x : Decl) : ((declAssigns x).map (fun a => upper a.key)).Nodup := by
  have e : (declAssigns x).map (fun a => upper a.key) = (declAssigns x).map Assign.key :=
    List.map_congr_left (fun a ha => decl_upper ha)
  rw [e]
  have ne : ∀ {pre s t : String}, (∃ a, s.toList = '_' :: a) → (∃ a, t.toList = '_' :: a) → s.toList ≠ t.toList →
      var pre x.id s ≠ var pre x.id t := fun h1 h2 h3 h => h3 (var_inj h1 h2 h).2
  have n1 : var "FRAME_" x.id "_NAME" ≠ var "FRAME_" x.id "_CLASS" := ne ⟨_, rfl⟩ ⟨_, rfl⟩ (by decide)
  have n2 : var "FRAME_" x.id "_NAME" ≠ var "FRAME_" x.id "_CLASS_ID" := ne ⟨_, rfl⟩ ⟨_, rfl⟩ (by decide)
  have n3 : var "FRAME_" x.id "_NAME" ≠ var "FRAME_" x.id "_CENTER" := ne ⟨_, rfl⟩ ⟨_, rfl⟩ (by decide)
  have n4 : var "FRAME_" x.id "_CLASS" ≠ var "FRAME_" x.id "_CLASS_ID" := ne ⟨_, rfl⟩ ⟨_, rfl⟩ (by decide)
  have n5 : var "FRAME_" x.id "_CLASS" ≠ var "FRAME_" x.id "_CENTER" := ne ⟨_, rfl⟩ ⟨_, rfl⟩ (by decide)
  have n6 : var "FRAME_" x.id "_CLASS_ID" ≠ var "FRAME_" x.id "_CENTER" := ne ⟨_, rfl⟩ ⟨_, rfl⟩ (by decide)
  have n7 : var "TKFRAME_" x.id "_SPEC" ≠ var "TKFRAME_" x.id "_RELATIVE" := ne ⟨_, rfl⟩ ⟨_, rfl⟩ (by decide)
  have n8 : var "TKFRAME_" x.id "_SPEC" ≠ var "TKFRAME_" x.id "_MATRIX" := ne ⟨_, rfl⟩ ⟨_, rfl⟩ (by decide)
  have n9 : var "TKFRAME_" x.id "_RELATIVE" ≠ var "TKFRAME_" x.id "_MATRIX" := ne ⟨_, rfl⟩ ⟨_, rfl⟩ (by decide)
  have pf : ∀ s t, var "FRAME_" x.id s ≠ var "TKFRAME_" x.id t := fun s t => var_prefix_ne
  unfold declAssigns
  cases x.tk with
  | none => simp [tkAssigns, assign, n1, n2, n3, n4, n5, n6]
  | some t => simp [tkAssigns, assign, n1, n2, n3, n4, n5, n6, n7, n8, n9, pf]

/-- A variable that is not about frames. -/
def Foreign (a : Assign) : Prop :=
  stripPrefix "FRAME_".toList (upper a.key) = none ∧ stripPrefix "TKFRAME_".toList (upper a.key) = none

theorem foreign_ne {a : Assign} (h : Foreign a) (i : Int) (s : String) :
    upper a.key ≠ var "FRAME_" i s ∧ upper a.key ≠ var "TKFRAME_" i s := by
  constructor
  · intro e
    have := h.1
    rw [e, var, stripPrefix_append] at this
    cases this
  · intro e
    have := h.2
    rw [e, var, stripPrefix_append] at this
    cases this

/-- All variables of a kernel: those of the frames and others, in any order. -/
theorem all_nodup {xs : List Decl} (hid : (xs.map Decl.id).Nodup) {ex : List Assign}
    (hx : (ex.map (fun a => upper a.key)).Nodup) (hf : ∀ a ∈ ex, Foreign a) :
    ((xs.flatMap declAssigns ++ ex).map (fun a => upper a.key)).Nodup := by
  rw [List.map_append, List.nodup_append]
  refine ⟨?_, hx, ?_⟩
  · rw [List.map_flatMap, List.nodup_flatMap]
    refine ⟨fun x _ => decl_nodup x, ?_⟩
    have hp : xs.Pairwise (fun a b => a.id ≠ b.id) := List.pairwise_map.mp hid
    refine hp.imp ?_
    intro x y hne k hk hk'
    rw [List.mem_map] at hk hk'
    obtain ⟨a, ha, rfl⟩ := hk
    obtain ⟨b, hb, e⟩ := hk'
    rw [decl_upper ha, decl_upper hb] at e
    exact hne (decl_same ha hb e.symm)
  · intro k hk k' hk'
    rw [List.mem_map] at hk hk'
    obtain ⟨a, ha, rfl⟩ := hk
    obtain ⟨b, hb, rfl⟩ := hk'
    rw [List.mem_flatMap] at ha
    obtain ⟨x, _, ha⟩ := ha
    rw [decl_upper ha]
    rcases decl_key ha with ⟨s, _, e⟩ | ⟨s, _, e⟩
    · rw [e]
      exact (foreign_ne (hf b hb) _ _).1.symm
    · rw [e]
      exact (foreign_ne (hf b hb) _ _).2.symm

/-! ### From the text to the records -/

theorem name_assign_ok {k s : Str} (hk : k ≠ [] ∧ ∀ c ∈ k, keyChar c) (h : NameOk s) : AssignOk (assign k (str s)) := by
  refine ⟨hk.1, hk.2, ?_, ?_⟩
  · intro x hx
    simp only [assign, str, rhsScalars, List.mem_singleton] at hx
    subst hx
    exact ⟨h.1, h.2.1, h.2.2.1⟩
  · intro _ x hx
    simp only [assign, str, rhsScalars, List.mem_singleton] at hx
    subst hx
    exact h.2.2.2

theorem int_assign_ok {k : Str} {i : Int} (hk : k ≠ [] ∧ ∀ c ∈ k, keyChar c) (h : IsI32 i) : AssignOk (assign k (int i)) := by
  refine ⟨hk.1, hk.2, ?_, ?_⟩
  · intro x hx
    simp only [assign, int, rhsScalars, List.mem_singleton] at hx
    subst hx
    obtain ⟨a, b⟩ := h
    constructor <;> omega
  · intro _ x hx
    simp only [assign, int, rhsScalars, List.mem_singleton] at hx
    subst hx
    trivial

theorem var_key {pre s : String} (i : Int) (h1 : ∀ c ∈ pre.toList, keyChar c) (h2 : ∀ c ∈ s.toList, keyChar c)
    (hne : pre.toList ≠ []) : var pre i s ≠ [] ∧ ∀ c ∈ var pre i s, keyChar c := by
  unfold var
  refine ⟨by simp [hne], ?_⟩
  intro c hc
  rw [List.mem_append, List.mem_append] at hc
  rcases hc with hc | hc | hc
  · exact h1 c hc
  · rcases idStr_chars i c hc with h | h
    · left
      rw [Char.isAlphanum, h]
      simp
    · exact Or.inr (Or.inr (Or.inr (Or.inl h)))
  · exact h2 c hc

theorem class_i32 (c : Frames.FrameClass) : IsI32 (classNumber c) := by
  cases c <;> constructor <;> decide

theorem decl_ok {x : Decl} (h : DeclOk x) : ∀ a ∈ declAssigns x, AssignOk a := by
  have kc : ∀ s : String, (∀ c ∈ s.toList, c.isAlphanum = true ∨ c = '_' ∨ c = '/' ∨ c = '-' ∨ c = '.') →
      ∀ c ∈ s.toList, keyChar c := fun s h => h
  have kf : ∀ s : String, (∀ c ∈ s.toList, keyChar c) → var "FRAME_" x.id s ≠ [] ∧ ∀ c ∈ var "FRAME_" x.id s, keyChar c :=
    fun s hs => var_key x.id (kc "FRAME_" (by decide)) hs (by decide)
  have kt : ∀ s : String, (∀ c ∈ s.toList, keyChar c) → var "TKFRAME_" x.id s ≠ [] ∧ ∀ c ∈ var "TKFRAME_" x.id s, keyChar c :=
    fun s hs => var_key x.id (kc "TKFRAME_" (by decide)) hs (by decide)
  intro a ha
  unfold declAssigns at ha
  rw [List.mem_append] at ha
  rcases ha with ha | ha
  · simp only [List.mem_cons, List.not_mem_nil, or_false] at ha
    rcases ha with rfl | rfl | rfl | rfl
    · exact name_assign_ok (kf "_NAME" (kc _ (by decide))) h.name
    · exact int_assign_ok (kf "_CLASS" (kc _ (by decide))) (class_i32 _)
    · exact int_assign_ok (kf "_CLASS_ID" (kc _ (by decide))) h.classId
    · exact int_assign_ok (kf "_CENTER" (kc _ (by decide))) h.center
  · cases ht : x.tk with
    | none =>
      rw [ht] at ha
      cases ha
    | some t =>
      rw [ht] at ha
      simp only [tkAssigns, List.mem_cons, List.not_mem_nil, or_false] at ha
      rcases ha with rfl | rfl | rfl
      · exact name_assign_ok (kt "_SPEC" (kc _ (by decide))) ⟨by decide, by decide, by decide, by decide⟩
      · exact name_assign_ok (kt "_RELATIVE" (kc _ (by decide))) (h.tk t ht).2
      · refine ⟨(kt "_MATRIX" (kc _ (by decide))).1, (kt "_MATRIX" (kc _ (by decide))).2, ?_, ?_⟩
        · intro s hs
          simp only [assign, matrixRhs, rhsScalars, List.flatMap_cons, List.flatMap_nil, List.append_nil,
            List.mem_append, List.mem_cons, List.not_mem_nil, or_false] at hs
          rcases hs with (rfl | rfl | rfl) | (rfl | rfl | rfl) | (rfl | rfl | rfl) <;> trivial
        · intro _ s hs
          simp only [assign, matrixRhs, rhsScalars, List.flatMap_cons, List.flatMap_nil, List.append_nil,
            List.mem_append, List.mem_cons, List.not_mem_nil, or_false] at hs
          rcases hs with (rfl | rfl | rfl) | (rfl | rfl | rfl) | (rfl | rfl | rfl) <;> trivial

/-- A frame kernel, read from its text: written frames and any other variables, in any order, give one record
for each frame, in increasing order of the identifiers. -/
theorem written_frames {pre : List Str} (hpre : ∀ l ∈ pre, PrefaceOk l) {xs : List Decl} (hok : ∀ x ∈ xs, DeclOk x)
    (hid : (xs.map Decl.id).Nodup) {ex : List Assign} (hex : ∀ a ∈ ex, AssignOk a ∧ Foreign a)
    (hx : (ex.map (fun a => upper a.key)).Nodup) {as : List Assign} (has : as.Perm (xs.flatMap declAssigns ++ ex)) :
    ∃ fs, fkFromText (kernelText pre as) = some (.ok fs) ∧ (fs.map FrameSpec.id).Pairwise (· < ·) ∧
      fs.Perm (xs.map recordOf) := by
  have hall : ∀ a ∈ as, AssignOk a := by
    intro a ha
    rw [has.mem_iff, List.mem_append, List.mem_flatMap] at ha
    rcases ha with ⟨x, hx, ha⟩ | ha
    · exact decl_ok (hok x hx) a ha
    · exact (hex a ha).1
  have hnd : (as.map (fun a => upper a.key)).Nodup :=
    (has.map _).nodup_iff.mpr (all_nodup hid hx (fun a ha => (hex a ha).2))
  have hp := parse_kernel hpre hall
  generalize hd : as.foldl (fun d a => store d (upper a.key) a.append (rhsValue a.rhs)) [] = d at hp
  have hv : ∀ k, getKey d k = valueOf as k := fun k => by rw [← hd]; exact fold_value as k
  have said : ∀ x ∈ xs, ∀ a ∈ declAssigns x, a.append = false → get d a.key = some (rhsValue a.rhs) := by
    intro x hx' a ha happ
    have hm : a ∈ as := by
      rw [has.mem_iff, List.mem_append, List.mem_flatMap]
      exact Or.inl ⟨x, hx', ha⟩
    show getKey d (upper a.key) = _
    rw [hv, valueOf_once hnd hm happ]
  have unsaid : ∀ x ∈ xs, x.tk = none → get d (var "TKFRAME_" x.id "_SPEC") = none := by
    intro x hx' ht
    show getKey d (upper _) = _
    rw [hv, upper_var (by decide) (by decide)]
    apply valueOf_none
    intro a ha e
    rw [has.mem_iff, List.mem_append, List.mem_flatMap] at ha
    rcases ha with ⟨y, hy, ha⟩ | ha
    · have hu := decl_upper ha
      rcases decl_key ha with ⟨s, hs, f⟩ | ⟨s, hs, f⟩
      · exact var_prefix_ne (f.symm.trans (hu.symm.trans e))
      · have hxy : y.id = x.id := (var_inj (suffix_under (by simp at hs ⊢; tauto)).1 ⟨_, rfl⟩
          (f.symm.trans (hu.symm.trans e))).1
        have : y = x := List.inj_on_of_nodup_map hid hy hx' hxy
        subst this
        unfold declAssigns at ha
        rw [ht, tkAssigns, List.append_nil] at ha
        simp only [List.mem_cons, List.not_mem_nil, or_false] at ha
        rcases ha with rfl | rfl | rfl | rfl <;> exact var_prefix_ne f
    · exact (foreign_ne (hex a ha).2 _ _).2 e
  have desc : ∀ x ∈ xs, Describes (get d) (recordOf x) := by
    intro x hx'
    have hD := hok x hx'
    have s := said x hx'
    have hin : ∀ a, a ∈ declAssigns x ↔ a ∈ _ ∨ a ∈ _ := fun a => List.mem_append
    refine ⟨⟨x.name, ?_, rfl⟩, ⟨.int (classNumber x.cls), ?_, rfl, class_i32 _⟩, ⟨.int x.classId, ?_, rfl, hD.classId⟩,
      ⟨.int x.center, ?_, rfl, hD.center⟩, ?_, ?_⟩
    · exact s (assign (var "FRAME_" x.id "_NAME") (str x.name)) ((hin _).mpr (Or.inl (by simp))) rfl
    · exact s (assign (var "FRAME_" x.id "_CLASS") (int (classNumber x.cls))) ((hin _).mpr (Or.inl (by simp))) rfl
    · exact s (assign (var "FRAME_" x.id "_CLASS_ID") (int x.classId)) ((hin _).mpr (Or.inl (by simp))) rfl
    · exact s (assign (var "FRAME_" x.id "_CENTER") (int x.center)) ((hin _).mpr (Or.inl (by simp))) rfl
    · rintro h
      cases ht : x.tk with
      | none =>
        show x.tk.map _ = none
        rw [ht]
        rfl
      | some t =>
        rcases h with h | h
        · exact absurd (hD.tk t ht).1 h
        · have := s (assign (var "TKFRAME_" x.id "_SPEC") (str "MATRIX".toList))
            ((hin _).mpr (Or.inr (by rw [ht]; simp [tkAssigns]))) rfl
          rw [show (recordOf x).id = x.id from rfl] at h
          rw [show (assign (var "TKFRAME_" x.id "_SPEC") (str "MATRIX".toList)).key = var "TKFRAME_" x.id "_SPEC" from rfl, h] at this
          cases this
    · intro _ hs
      cases ht : x.tk with
      | none => exact absurd (unsaid x hx' ht) hs
      | some t =>
        refine ⟨?_, entryValue (t.m 0 0), entryValue (t.m 0 1), entryValue (t.m 0 2), entryValue (t.m 1 0),
          entryValue (t.m 1 1), entryValue (t.m 1 2), entryValue (t.m 2 0), entryValue (t.m 2 1),
          entryValue (t.m 2 2), t.relative, ?_, ?_, ?_⟩
        · exact s (assign (var "TKFRAME_" x.id "_SPEC") (str "MATRIX".toList))
            ((hin _).mpr (Or.inr (by rw [ht]; simp [tkAssigns]))) rfl
        · exact s (assign (var "TKFRAME_" x.id "_RELATIVE") (str t.relative))
            ((hin _).mpr (Or.inr (by rw [ht]; simp [tkAssigns]))) rfl
        · exact ⟨_, s (assign (var "TKFRAME_" x.id "_MATRIX") (matrixRhs t.m))
            ((hin _).mpr (Or.inr (by rw [ht]; simp [tkAssigns]))) rfl, rfl⟩
        · show x.tk.map _ = _
          rw [ht]
          rfl
  have named : ∀ i, Named d "FRAME_" "_NAME" i ↔ i ∈ xs.map Decl.id := by
    intro i
    constructor
    · rintro ⟨t, v, hm, hi⟩
      have h1 : (getKey d ("FRAME_".toList ++ t ++ "_NAME".toList)).isSome = true := getKey_isSome.mpr ⟨v, hm⟩
      rw [hv] at h1
      obtain ⟨a, ha, e⟩ := valueOf_isSome h1
      rw [has.mem_iff, List.mem_append, List.mem_flatMap] at ha
      rcases ha with ⟨x, hx', ha⟩ | ha
      · rw [decl_upper ha] at e
        rcases decl_key ha with ⟨s, hs, f⟩ | ⟨s, hs, f⟩
        · rw [f] at e
          unfold var at e
          rw [List.append_assoc] at e
          have e := List.append_cancel_left e
          have suf : s.toList = "_NAME".toList ∧ scalarText (.int x.id) = t := by
            simp only [List.mem_cons, List.not_mem_nil, or_false] at hs
            have last := congrArg List.getLast? e
            rcases hs with rfl | rfl | rfl | rfl
            · exact ⟨rfl, List.append_cancel_right e⟩
            · simp at last
            · simp at last
            · simp at last
          rw [← suf.2] at hi
          have := parse_idStr (hok x hx').id
          rw [show idStr x.id = scalarText (.int x.id) from rfl, hi] at this
          injection this with this
          rw [this]
          exact List.mem_map_of_mem hx'
        · rw [f] at e
          unfold var at e
          have := congrArg List.head? e
          simp at this
      · have := (hex a ha).2.1
        rw [e, List.append_assoc, stripPrefix_append] at this
        cases this
    · intro hi
      rw [List.mem_map] at hi
      obtain ⟨x, hx', rfl⟩ := hi
      have h1 := said x hx' (assign (var "FRAME_" x.id "_NAME") (str x.name)) (List.mem_append.mpr (Or.inl (by simp))) rfl
      have h2 : (getKey d (upper (var "FRAME_" x.id "_NAME"))).isSome = true := by
        rw [show getKey d (upper (var "FRAME_" x.id "_NAME")) = _ from h1]
        rfl
      rw [upper_var (by decide) (by decide)] at h2
      obtain ⟨v, hm⟩ := getKey_isSome.mp h2
      refine ⟨idStr x.id, v, ?_, parse_idStr (hok x hx').id⟩
      rw [List.append_assoc]
      exact hm
  let pick : Int → Option FrameSpec := fun i => (xs.find? (fun x => x.id = i)).map recordOf
  have hpick : ∀ x ∈ xs, pick x.id = some (recordOf x) := by
    intro x hx'
    rcases hf : xs.find? (fun y => decide (y.id = x.id)) with _ | y
    · rw [List.find?_eq_none] at hf
      exact absurd (hf x hx') (by simp)
    · have h1 := List.find?_some hf
      rw [decide_eq_true_eq] at h1
      have : y = x := List.inj_on_of_nodup_map hid (List.mem_of_find?_eq_some hf) hx' h1
      show (xs.find? _).map _ = _
      rw [hf, this]
      rfl
  let fs := (sortDedup (xs.map Decl.id)).filterMap pick
  have hperm : fs.Perm (xs.map recordOf) := by
    have h1 : (sortDedup (xs.map Decl.id)).Perm (xs.map Decl.id) := by
      rw [List.perm_ext_iff_of_nodup ((sortDedup_sorted _).imp (fun h => ne_of_lt h)) hid]
      exact fun a => mem_sortDedup
    have h2 := h1.filterMap pick
    have h3 : (xs.map Decl.id).filterMap pick = xs.map recordOf := by
      rw [List.filterMap_map]
      have : ∀ l : List Decl, (∀ x ∈ l, x ∈ xs) → l.filterMap (pick ∘ Decl.id) = l.map recordOf := by
        intro l
        induction l with
        | nil => intro _; rfl
        | cons x l ih =>
          intro hl
          rw [List.filterMap_cons, Function.comp, hpick x (hl x List.mem_cons_self)]
          rw [List.map_cons]
          dsimp only
          rw [← ih (fun y hy => hl y (List.mem_cons_of_mem _ hy))]
      exact this xs (fun x hx => hx)
    rw [h3] at h2
    exact h2
  have hids : fs.map FrameSpec.id = sortDedup (xs.map Decl.id) := by
    have : ∀ l : List Int, (∀ i ∈ l, i ∈ xs.map Decl.id) → (l.filterMap pick).map FrameSpec.id = l := by
      intro l
      induction l with
      | nil => intro _; rfl
      | cons i l ih =>
        intro hl
        obtain ⟨x, hx', rfl⟩ := List.mem_map.mp (hl i List.mem_cons_self)
        rw [List.filterMap_cons, hpick x hx']
        dsimp only
        rw [List.map_cons, ih (fun j hj => hl j (List.mem_cons_of_mem _ hj))]
        rfl
    exact this _ (fun i hi => mem_sortDedup.mp hi)
  refine ⟨fs, ?_, ?_, hperm⟩
  · unfold fkFromText withKernel
    rw [hp]
    simp only [Option.some.injEq]
    rw [frames_read]
    refine ⟨by rw [hids]; exact sortDedup_sorted _, ?_, ?_⟩
    · intro i
      rw [hids, mem_sortDedup, named]
    · intro f hf
      rw [hperm.mem_iff, List.mem_map] at hf
      obtain ⟨x, hx', rfl⟩ := hf
      exact desc x hx'
  · rw [hids]
    exact sortDedup_sorted _

end Verif.Kernels
