import Verif.Kernels.Written
import Verif.Frames.Props

/-
Properties C151 to C153: frame, instrument and clock kernels, and loading.
-/
namespace Verif.Kernels.Props
open Verif.Text Verif.TextKernel Verif.TextKernel.Spec Verif.Kernels

/-! ### C151: frame kernels -/

/-- Frames are read exactly so: one record for each identifier that is named, in increasing order, each saying
what the variables say about it. -/
theorem fk_read {src : Str} {fs : List FrameSpec} :
    fkFromText src = some (.ok fs) ↔ ∃ d, parse src = some (.ok d) ∧ (fs.map FrameSpec.id).Pairwise (· < ·) ∧
      (∀ i, i ∈ fs.map FrameSpec.id ↔ Named d "FRAME_" "_NAME" i) ∧ ∀ f ∈ fs, Describes (get d) f := by
  unfold fkFromText withKernel
  rcases parse src with _ | (e | d)
  · simp
  · simp
  · simp only [Option.some.injEq, Except.ok.injEq]
    rw [frames_read]
    constructor
    · intro h
      exact ⟨d, rfl, h⟩
    · rintro ⟨d', rfl, h⟩
      exact h

/-- From the text: written frames and any other variables, in any order, give one record for each frame, in
increasing order of the identifiers. -/
theorem fk_written {pre : List Str} (hpre : ∀ l ∈ pre, PrefaceOk l) {xs : List Decl} (hok : ∀ x ∈ xs, DeclOk x)
    (hid : (xs.map Decl.id).Nodup) {ex : List Assign} (hex : ∀ a ∈ ex, AssignOk a ∧ Foreign a)
    (hx : (ex.map (fun a => upper a.key)).Nodup) {as : List Assign} (has : as.Perm (xs.flatMap declAssigns ++ ex)) :
    ∃ fs, fkFromText (kernelText pre as) = some (.ok fs) ∧ (fs.map FrameSpec.id).Pairwise (· < ·) ∧
      fs.Perm (xs.map recordOf) :=
  written_frames hpre hok hid hex hx has

/-- Lookups in what was read: by identifier, and by name in any case if no other frame has it. -/
theorem fk_lookup {d : Data} {fs : List FrameSpec} (h : framesOf d = .ok fs) {f : FrameSpec} (hf : f ∈ fs) :
    frameById fs f.id = some f ∧
      ∀ n, upper n = f.name → (∀ g ∈ fs, g.name = f.name → g = f) → frameByName fs n = some f := by
  have hs := (frames_read.mp h).1
  have hnd : (fs.map FrameSpec.id).Nodup := hs.imp (fun h => ne_of_lt h)
  constructor
  · unfold frameById
    rcases hq : fs.find? (fun g => decide (g.id = f.id)) with _ | g
    · rw [List.find?_eq_none] at hq
      exact absurd (hq f hf) (by simp)
    · have h1 := List.find?_some hq
      rw [decide_eq_true_eq] at h1
      exact hq.trans (congrArg some (List.inj_on_of_nodup_map hnd (List.mem_of_find?_eq_some hq) hf h1))
  · intro n hn hu
    unfold frameByName
    rcases hq : fs.find? (fun g => decide (g.name = upper n)) with _ | g
    · rw [List.find?_eq_none] at hq
      exact absurd (hq f hf) (by simp [hn])
    · have h1 := List.find?_some hq
      rw [decide_eq_true_eq] at h1
      exact hq.trans (congrArg some (hu g (List.mem_of_find?_eq_some hq) (h1.trans hn)))

/-- A refusal names a variable that is really missing. -/
theorem fk_missing {d : Data} {k : Str} (h : framesOf d = .error (.missing k)) :
    get d k = none ∧ ∃ i, Named d "FRAME_" "_NAME" i ∧
      ((∃ s ∈ ["_NAME", "_CLASS", "_CLASS_ID", "_CENTER"], k = var "FRAME_" i s) ∨ k = var "TKFRAME_" i "_RELATIVE") := by
  have bind_missing : ∀ {α β : Type} {x : K α} {f : α → K β} {k : Str}, Except.bind x f = .error (.missing k) →
      x = .error (.missing k) ∨ ∃ a, x = .ok a ∧ f a = .error (.missing k) := by
    intro α β x f k hb
    cases x with
    | error e =>
      injection hb with hb
      exact Or.inl (by rw [hb])
    | ok a => exact Or.inr ⟨a, rfl, hb⟩
  have need_missing : ∀ {k k' : Str}, need d k = .error (.missing k') → get d k = none ∧ k' = k := by
    intro k k' hb
    unfold need at hb
    rcases hg : get d k with _ | v
    · rw [hg] at hb
      injection hb with hb
      injection hb with hb
      exact ⟨rfl, hb.symm⟩
    · rw [hg] at hb
      cases hb
  have text_no : ∀ {v : TextValue} {k k' : Str}, textValue v k ≠ .error (.missing k') := by
    intro v k k'
    cases v <;> simp [textValue]
  have int_no : ∀ {v : TextValue} {k k' : Str}, intValue v k ≠ .error (.missing k') := by
    intro v k k'
    cases v <;> simp [intValue]
    split <;> simp
  have class_no : ∀ {c : Int} {k' : Str}, parseFrameClass c ≠ .error (.missing k') := by
    intro c k'
    unfold parseFrameClass
    repeat' split
    all_goals simp
  unfold framesOf at h
  rw [readAll_error_iff] at h
  obtain ⟨a, i, b, hl, _, hi⟩ := h
  have hn : Named d "FRAME_" "_NAME" i := by
    rw [← named_frame, ← mem_sortDedup, hl]
    simp
  unfold readFrame at hi
  rw [frameKey_eq i "NAME" "_NAME" rfl, frameKey_eq i "CLASS" "_CLASS" rfl,
    frameKey_eq i "CLASS_ID" "_CLASS_ID" rfl, frameKey_eq i "CENTER" "_CENTER" rfl] at hi
  rcases bind_missing hi with hi | ⟨_, _, hi⟩
  · obtain ⟨h1, h2⟩ := need_missing hi
    rw [h2]
    exact ⟨h1, i, hn, Or.inl ⟨"_NAME", by simp, rfl⟩⟩
  rcases bind_missing hi with hi | ⟨_, _, hi⟩
  · exact absurd hi text_no
  rcases bind_missing hi with hi | ⟨_, _, hi⟩
  · obtain ⟨h1, h2⟩ := need_missing hi
    rw [h2]
    exact ⟨h1, i, hn, Or.inl ⟨"_CLASS", by simp, rfl⟩⟩
  rcases bind_missing hi with hi | ⟨_, _, hi⟩
  · exact absurd hi int_no
  rcases bind_missing hi with hi | ⟨_, _, hi⟩
  · exact absurd hi class_no
  rcases bind_missing hi with hi | ⟨_, _, hi⟩
  · obtain ⟨h1, h2⟩ := need_missing hi
    rw [h2]
    exact ⟨h1, i, hn, Or.inl ⟨"_CLASS_ID", by simp, rfl⟩⟩
  rcases bind_missing hi with hi | ⟨_, _, hi⟩
  · exact absurd hi int_no
  rcases bind_missing hi with hi | ⟨_, _, hi⟩
  · obtain ⟨h1, h2⟩ := need_missing hi
    rw [h2]
    exact ⟨h1, i, hn, Or.inl ⟨"_CENTER", by simp, rfl⟩⟩
  rcases bind_missing hi with hi | ⟨_, _, hi⟩
  · exact absurd hi int_no
  rcases bind_missing hi with hi | ⟨_, _, hi⟩
  · unfold readTk at hi
    split at hi
    · rcases bind_missing hi with hi | ⟨o, ho, hi⟩
      · unfold optional at hi
        split at hi
        · cases hi
        · split at hi
          · rename_i e he
            injection hi with hi
            rw [hi] at he
            exact absurd he text_no
          · cases hi
      · cases o with
        | none => cases hi
        | some s =>
          simp only at hi
          split at hi
          · have hi : readMatrix d i = .error (.missing k) := by
              cases hr : readMatrix d i with
              | error e =>
                rw [hr] at hi
                injection hi with hi
                rw [hi]
              | ok r =>
                rw [hr] at hi
                cases hi
            unfold readMatrix at hi
            rw [tkKey_eq i "MATRIX" "_MATRIX" rfl, tkKey_eq i "RELATIVE" "_RELATIVE" rfl] at hi
            split at hi
            · cases hi
            · rcases bind_missing hi with hi | ⟨_, _, hi⟩
              · obtain ⟨h1, h2⟩ := need_missing hi
                rw [h2]
                exact ⟨h1, i, hn, Or.inr rfl⟩
              · rcases bind_missing hi with hi | ⟨_, _, hi⟩
                · exact absurd hi text_no
                · cases hi
            · cases hi
          · cases hi
    · cases hi
  · cases hi

/-- The order of the hash map does not matter, for frames, instruments and clocks. -/
theorem order_irrelevant {d d' : Data} (h : d.Perm d') (hd : (d.map Prod.fst).Nodup) {fs : List FrameSpec}
    {is : List Instrument} {cs : List Clock} :
    (framesOf d = .ok fs ↔ framesOf d' = .ok fs) ∧ (instrumentsOf d = .ok is ↔ instrumentsOf d' = .ok is) ∧
      (clocksOf d = .ok cs ↔ clocksOf d' = .ok cs) := by
  have hg : get d = get d' := by
    funext k
    exact getKey_perm h hd (upper k)
  refine ⟨?_, ?_, ?_⟩
  · rw [frames_read, frames_read, hg]
    simp only [Named, h.mem_iff]
  · rw [instruments_read, instruments_read, hg]
    simp only [NamedIns, h.mem_iff]
  · rw [clocks_read, clocks_read, hg]
    simp only [Named, h.mem_iff]

/-- A frame written with a plus sign before its identifier is refused, as missing the very variable given. -/
theorem fk_alias_refused :
    fkFromText "\\begindata\nFRAME_+5_NAME = 'A'\nFRAME_+5_CLASS = 3\nFRAME_+5_CLASS_ID = 5\nFRAME_+5_CENTER = 0\n".toList =
      some (.error (.missing "FRAME_5_NAME".toList)) := by
  decide +kernel

/-- A fractional class is cut to a class. -/
theorem fk_fraction_cut :
    fkFromText "\\begindata\nFRAME_5_NAME = 'A'\nFRAME_5_CLASS = 3.9\nFRAME_5_CLASS_ID = -0.5\nFRAME_5_CENTER = 1e99\n".toList =
      some (.ok [⟨5, "A".toList, .ck, 0, 2147483647, none⟩]) := by
  decide +kernel

/-- The specification is compared in upper case only, although names are not. -/
theorem fk_spec_case :
    fkFromText "\\begindata\nFRAME_5_NAME = 'a'\nFRAME_5_CLASS = 4\nFRAME_5_CLASS_ID = 5\nFRAME_5_CENTER = 0\nTKFRAME_5_SPEC = 'Matrix'\n".toList =
      some (.error (.unsupportedSpec "Matrix".toList 5)) := by
  decide +kernel

/-- A frame of the class that needs a matrix, without one, is accepted without rotation. -/
theorem fk_no_matrix :
    fkFromText "\\begindata\nFRAME_5_NAME = 'a'\nFRAME_5_CLASS = 4\nFRAME_5_CLASS_ID = 5\nFRAME_5_CENTER = 0\nTKFRAME_5_RELATIVE = 'J2000'\n".toList =
      some (.ok [⟨5, "A".toList, .twoVector, 5, 0, none⟩]) := by
  decide +kernel

/-- A frame with a rotation and one without, with another variable in between. -/
def demoDecls : List Decl :=
  [⟨7, "Cam".toList, .twoVector, 7, -82, some ⟨fun i j => (3, if i = j then 1 else 0), "Bus".toList⟩⟩,
   ⟨-82, "bus".toList, .ck, -82, -82, none⟩]

example : (demoDecls.map Decl.id).Nodup := by decide
example : ∀ x ∈ demoDecls, DeclOk x := by
  intro x hx
  simp only [demoDecls, List.mem_cons, List.not_mem_nil, or_false] at hx
  rcases hx with rfl | rfl
  · refine ⟨by constructor <;> decide, by constructor <;> decide, by constructor <;> decide,
      ⟨by decide, by decide, by decide, by decide⟩, ?_⟩
    intro t ht
    injection ht with ht
    subst ht
    exact ⟨rfl, by decide, by decide, by decide, by decide⟩
  · refine ⟨by constructor <;> decide, by constructor <;> decide, by constructor <;> decide,
      ⟨by decide, by decide, by decide, by decide⟩, ?_⟩
    intro t ht
    cases ht
example : Foreign ⟨"ins-82_fov".toList, false, false, false, .one (.int 1)⟩ := ⟨by decide, by decide⟩

/-! ### C152: instrument and clock kernels -/

/-- Instruments are read exactly so. -/
theorem ik_read {src : Str} {xs : List Instrument} :
    ikFromText src = some (.ok xs) ↔ ∃ d, parse src = some (.ok d) ∧ (xs.map Instrument.id).Pairwise (· < ·) ∧
      (∀ i, i ∈ xs.map Instrument.id ↔ NamedIns d i) ∧ ∀ x ∈ xs, DescribesIns (get d) x := by
  unfold ikFromText withKernel
  rcases parse src with _ | (e | d)
  · simp
  · simp
  · simp only [Option.some.injEq, Except.ok.injEq]
    rw [instruments_read]
    constructor
    · intro h
      exact ⟨d, rfl, h⟩
    · rintro ⟨d', rfl, h⟩
      exact h

/-- Clocks are read exactly so. -/
theorem sclk_read {src : Str} {xs : List Clock} :
    sclkFromText src = some (.ok xs) ↔ ∃ d, parse src = some (.ok d) ∧ (xs.map Clock.scId).Pairwise (· < ·) ∧
      (∀ i, i ∈ xs.map Clock.scId ↔ Named d "SCLK01_COEFFICIENTS_" "" i) ∧ ∀ x ∈ xs, DescribesClock (get d) x := by
  unfold sclkFromText withKernel
  rcases parse src with _ | (e | d)
  · simp
  · simp
  · simp only [Option.some.injEq, Except.ok.injEq]
    rw [clocks_read]
    constructor
    · intro h
      exact ⟨d, rfl, h⟩
    · rintro ⟨d', rfl, h⟩
      exact h

/-- An instrument is found by its identifier. -/
theorem ik_lookup {d : Data} {xs : List Instrument} (h : instrumentsOf d = .ok xs) {x : Instrument} (hx : x ∈ xs) :
    instrument xs x.id = some x := by
  have hnd : (xs.map Instrument.id).Nodup := (instruments_read.mp h).1.imp (fun h => ne_of_lt h)
  unfold instrument
  rcases hq : xs.find? (fun g => decide (g.id = x.id)) with _ | g
  · rw [List.find?_eq_none] at hq
    exact absurd (hq x hx) (by simp)
  · have h1 := List.find?_some hq
    rw [decide_eq_true_eq] at h1
    exact hq.trans (congrArg some (List.inj_on_of_nodup_map hnd (List.mem_of_find?_eq_some hq) hx h1))

/-- A boresight that is not numeric is passed over, an angle that is not is refused. -/
theorem ik_boresight_ignored :
    ikFromText "\\begindata\nINS-1_BORESIGHT = ( 0, 0, 'x' )\nINS-1_FOV_REF_ANGLE = 2\n".toList =
      some (.ok [⟨-1, none, none, none, some (.num 2), none⟩]) ∧
    ikFromText "\\begindata\nINS-1_FOV_REF_ANGLE = 'x'\n".toList =
      some (.error (.notNumeric "INS-1_FOV_REF_ANGLE".toList)) := by
  constructor <;> decide +kernel

/-- The unit of the angles is not looked at: the same number in radians and in degrees. -/
theorem ik_units_ignored :
    ikFromText "\\begindata\nINS-1_FOV_ANGLE_UNITS = 'RADIANS'\nINS-1_FOV_REF_ANGLE = 0.5\n".toList =
      ikFromText "\\begindata\nINS-1_FOV_ANGLE_UNITS = 'DEGREES'\nINS-1_FOV_REF_ANGLE = 0.5\n".toList ∧
    ikFromText "\\begindata\nINS-1_FOV_ANGLE_UNITS = 'RADIANS'\nINS-1_FOV_REF_ANGLE = 0.5\n".toList =
      some (.ok [⟨-1, none, none, none, some (.num (1 / 2)), none⟩]) := by
  constructor <;> decide +kernel

/-- A full instrument. -/
example : ikFromText "\\begindata\nINS-82_FOV_SHAPE = 'circle'\nINS-82_FOV_FRAME = 'cam'\nINS-82_BORESIGHT = ( 0, 0, 1.0 )\nINS-82_FOV_REF_ANGLE = 3.5\n".toList =
    some (.ok [⟨-82, some .circle, some "CAM".toList, some [.num 0, .num 0, .num 1], some (.num (7 / 2)), none⟩]) := by
  decide +kernel

/-- Two clocks, one with its entries out of order. -/
example : sclkFromText "\\begindata\nSCLK01_COEFFICIENTS_9 = ( 10 5 1, 0 0 2 )\nSCLK01_COEFFICIENTS_-82 = ( 0 0 1 )\n".toList =
    some (.ok [⟨-82, [⟨.num 0, .num 0, .num 1⟩]⟩, ⟨9, [⟨.num 0, .num 0, .num 2⟩, ⟨.num 10, .num 5, .num 1⟩]⟩]) := by
  decide +kernel

/-! ### C153: loading -/

variable {Spk Ck : Type}

/-- What a load may do to a context: kernels are appended, the leap seconds replaced. -/
structure Extends (c c' : Ctx Spk Ck) : Prop where
  spk : c.spk <+: c'.spk
  ck : c.ck <+: c'.ck
  fk : c.fk <+: c'.fk
  pck : c.pck <+: c'.pck
  sclk : c.sclk <+: c'.sclk
  ik : c.ik <+: c'.ik
  lsk : c.lsk.isSome = true → c'.lsk.isSome = true
  registry : ∃ l, c'.fk = c.fk ++ l ∧ c'.registry = c.registry ++ l.flatMap Prod.snd

theorem Extends.refl (c : Ctx Spk Ck) : Extends c c :=
  ⟨List.prefix_rfl, List.prefix_rfl, List.prefix_rfl, List.prefix_rfl, List.prefix_rfl, List.prefix_rfl, id,
    [], by simp, by simp⟩

theorem Extends.trans {a b c : Ctx Spk Ck} (h1 : Extends a b) (h2 : Extends b c) : Extends a c := by
  obtain ⟨l, e1, e2⟩ := h1.registry
  obtain ⟨m, e3, e4⟩ := h2.registry
  exact ⟨h1.spk.trans h2.spk, h1.ck.trans h2.ck, h1.fk.trans h2.fk, h1.pck.trans h2.pck, h1.sclk.trans h2.sclk,
    h1.ik.trans h2.ik, fun h => h2.lsk (h1.lsk h), l ++ m, by rw [e3, e1, List.append_assoc],
    by rw [e4, e2, List.append_assoc, List.flatMap_append]⟩

theorem step_extends {α : Type} {present : Data → Bool} {read : Data → K α} {put : α → Ctx Spk Ck → Ctx Spk Ck} {d : Data}
    (h : ∀ x c, Extends c (put x c)) (c : Ctx Spk Ck) : Extends c (step present read put d c).2 := by
  unfold step
  split
  · split
    · exact Extends.refl c
    · exact h _ c
  · exact Extends.refl c

theorem andThen_extends {f g : Ctx Spk Ck → Except LErr Unit × Ctx Spk Ck} (hf : ∀ c, Extends c (f c).2)
    (hg : ∀ c, Extends c (g c).2) (c : Ctx Spk Ck) : Extends c (andThen f g c).2 := by
  unfold andThen
  have h1 := hf c
  rcases hf' : f c with ⟨e | u, c'⟩
  · rw [hf'] at h1
    exact h1
  · rw [hf'] at h1
    exact h1.trans (hg c')

theorem put_lsk (label : Str) (x : Lsk) (c : Ctx Spk Ck) : Extends c { c with lsk := some (label, x) } :=
  ⟨List.prefix_rfl, List.prefix_rfl, List.prefix_rfl, List.prefix_rfl, List.prefix_rfl, List.prefix_rfl, fun _ => rfl,
    [], by simp, by simp⟩

theorem text_extends (label : Str) (d : Data) (c : Ctx Spk Ck) :
    Extends c (andThen (loadLsk label d) (andThen (loadFk label d) (andThen (loadPck label d)
      (andThen (loadSclk label d) (loadIk label d)))) c).2 := by
  refine andThen_extends (step_extends (put_lsk label)) (andThen_extends (step_extends ?_)
    (andThen_extends (step_extends ?_) (andThen_extends (step_extends ?_) (step_extends ?_)))) c
  · intro x c
    exact ⟨List.prefix_rfl, List.prefix_rfl, List.prefix_append _ _, List.prefix_rfl, List.prefix_rfl, List.prefix_rfl, id,
      [(label, x)], rfl, by simp⟩
  · intro x c
    exact ⟨List.prefix_rfl, List.prefix_rfl, List.prefix_rfl, List.prefix_append _ _, List.prefix_rfl, List.prefix_rfl, id,
      [], by simp, by simp⟩
  · intro x c
    exact ⟨List.prefix_rfl, List.prefix_rfl, List.prefix_rfl, List.prefix_rfl, List.prefix_append _ _, List.prefix_rfl, id,
      [], by simp, by simp⟩
  · intro x c
    exact ⟨List.prefix_rfl, List.prefix_rfl, List.prefix_rfl, List.prefix_rfl, List.prefix_rfl, List.prefix_append _ _, id,
      [], by simp, by simp⟩

/-- No load, failed or not, removes a kernel; the frames known are always those of the frame kernels loaded, in
the order of loading. -/
theorem load_extends (E : Env Spk Ck) (label : Str) (bytes : List UInt8) (c : Ctx Spk Ck)
    {r : Except LErr Unit} {c' : Ctx Spk Ck} (h : loadBytes E label bytes c = some (r, c')) : Extends c c' := by
  have up : ∀ {x : Ctx Spk Ck} {r' : Except LErr Unit}, Extends c x → some (r', x) = some (r, c') → Extends c c' := by
    intro x r' hx e
    injection e with e
    injection e with _ e
    rw [← e]
    exact hx
  unfold loadBytes at h
  dsimp only at h
  split at h
  · split at h
    · exact up (Extends.refl c) h
    · refine up ?_ h
      exact ⟨List.prefix_append _ _, List.prefix_rfl, List.prefix_rfl, List.prefix_rfl, List.prefix_rfl,
        List.prefix_rfl, id, [], by simp, by simp⟩
  · split at h
    · split at h
      · exact up (Extends.refl c) h
      · refine up ?_ h
        exact ⟨List.prefix_rfl, List.prefix_append _ _, List.prefix_rfl, List.prefix_rfl, List.prefix_rfl,
          List.prefix_rfl, id, [], by simp, by simp⟩
    · split at h
      · exact up (Extends.refl c) h
      · split at h
        · exact up (Extends.refl c) h
        · split at h
          · exact up (Extends.refl c) h
          · unfold loadTextKernel at h
            split at h
            · cases h
            · exact up (Extends.refl c) h
            · rename_i d _
              injection h with h
              have := text_extends label d c
              rw [h] at this
              exact this

/-- A new context: nothing loaded, the built-in frame known. -/
def fresh (builtin : List FrameSpec) : Ctx Spk Ck := ⟨[], [], none, [], [], [], [], builtin⟩

/-- After any sequence of loads, failed ones included, the known frames are the built-in ones followed by those of
the loaded frame kernels. -/
theorem registry_invariant (E : Env Spk Ck) (builtin : List FrameSpec) :
    ∀ (files : List (Str × List UInt8)) (c : Ctx Spk Ck), c.registry = builtin ++ c.fk.flatMap Prod.snd →
      ∀ c', files.foldlM (fun c f => (loadBytes E f.1 f.2 c).map Prod.snd) c = some c' →
        c'.registry = builtin ++ c'.fk.flatMap Prod.snd
  | [], c, hc, c', h => by
    injection h with h
    rw [← h]
    exact hc
  | f :: fs, c, hc, c', h => by
    rw [List.foldlM_cons] at h
    rcases hl : loadBytes E f.1 f.2 c with _ | ⟨r, c1⟩
    · rw [hl] at h
      cases h
    · rw [hl] at h
      refine registry_invariant E builtin fs c1 ?_ c' h
      obtain ⟨l, e1, e2⟩ := (load_extends E f.1 f.2 c hl).registry
      rw [e2, e1, hc, List.flatMap_append, List.append_assoc]

/-- A variable whose name begins and goes on so. -/
def HasVar (d : Data) (pre mid : String) : Prop := ∃ kv ∈ d, pre.toList <+: kv.1 ∧ mid.toList <:+: kv.1

theorem contains_iff (p : Str) : ∀ s : Str, contains p s = true ↔ p <:+: s
  | [] => by
    simp [contains]
  | c :: s => by
    rw [contains, Bool.or_eq_true, contains_iff p s, List.infix_cons_iff, List.isPrefixOf_iff_prefix]

/-- Which variables make a text a kernel of a kind. -/
theorem detection (d : Data) :
    (hasLsk d = true ↔ (∃ v, get d "DELTET/DELTA_T_A".toList = some v) ∨ ∃ v, get d "DELTET/DELTA_AT".toList = some v) ∧
    (hasFk d = true ↔ HasVar d "FRAME_" "") ∧
    (hasPck d = true ↔ HasVar d "BODY" "_POLE_RA" ∨ HasVar d "BODY" "_RADII") ∧
    (hasSclk d = true ↔ HasVar d "SCLK01_COEFFICIENTS_" "") ∧ (hasIk d = true ↔ HasVar d "INS" "_FOV") := by
  refine ⟨?_, ?_, ?_, ?_, ?_⟩
  · rw [hasLsk, Bool.or_eq_true, Option.isSome_iff_exists, Option.isSome_iff_exists]
  · simp [hasFk, HasVar, List.any_eq_true, List.isPrefixOf_iff_prefix, -Prod.exists, -List.any_eq]
  · simp only [hasPck, HasVar, List.any_eq_true, List.isPrefixOf_iff_prefix, Bool.and_eq_true, Bool.or_eq_true, contains_iff]
    constructor
    · rintro ⟨kv, h, h1, h2 | h2⟩
      · exact Or.inl ⟨kv, h, h1, h2⟩
      · exact Or.inr ⟨kv, h, h1, h2⟩
    · rintro (⟨kv, h, h1, h2⟩ | ⟨kv, h, h1, h2⟩)
      · exact ⟨kv, h, h1, Or.inl h2⟩
      · exact ⟨kv, h, h1, Or.inr h2⟩
  · simp [hasSclk, HasVar, List.any_eq_true, List.isPrefixOf_iff_prefix, -Prod.exists, -List.any_eq]
  · simp only [hasIk, HasVar, List.any_eq_true, List.isPrefixOf_iff_prefix, Bool.and_eq_true, contains_iff]

/-- What a text adds when it is accepted: each kind of kernel exactly if its variables are present. -/
theorem text_load_ok {label text : Str} {c c' : Ctx Spk Ck} (h : loadTextKernel label text c = some (.ok (), c')) :
    ∃ d, parse text = some (.ok d) ∧ c'.spk = c.spk ∧ c'.ck = c.ck ∧
      (if hasLsk d then ∃ x, lskOf d = .ok x ∧ c'.lsk = some (label, x) else c'.lsk = c.lsk) ∧
      (if hasFk d then ∃ x, framesOf d = .ok x ∧ c'.fk = c.fk ++ [(label, x)] ∧ c'.registry = c.registry ++ x
        else c'.fk = c.fk ∧ c'.registry = c.registry) ∧
      (if hasPck d then ∃ x, pckOf d = .ok x ∧ c'.pck = c.pck ++ [(label, x)] else c'.pck = c.pck) ∧
      (if hasSclk d then ∃ x, clocksOf d = .ok x ∧ c'.sclk = c.sclk ++ x.map (fun k => (label, k)) else c'.sclk = c.sclk) ∧
      (if hasIk d then ∃ x, instrumentsOf d = .ok x ∧ c'.ik = c.ik ++ [(label, x)] else c'.ik = c.ik) := by
  have and_ok : ∀ {f g : Ctx Spk Ck → Except LErr Unit × Ctx Spk Ck} {c c' : Ctx Spk Ck}, andThen f g c = (.ok (), c') →
      ∃ c1, f c = (.ok (), c1) ∧ g c1 = (.ok (), c') := by
    intro f g c c' h
    unfold andThen at h
    rcases hf : f c with ⟨e | u, c1⟩
    · rw [hf] at h
      cases h
    · rw [hf] at h
      exact ⟨c1, rfl, h⟩
  have step_ok : ∀ {α : Type} {p : Data → Bool} {rd : Data → K α} {put : α → Ctx Spk Ck → Ctx Spk Ck} {d : Data}
      {c c' : Ctx Spk Ck}, step p rd put d c = (.ok (), c') →
      (p d = true ∧ ∃ x, rd d = .ok x ∧ c' = put x c) ∨ (p d = false ∧ c' = c) := by
    intro α p rd put d c c' h
    unfold step at h
    rcases hp : p d with _ | _
    · rw [hp] at h
      injection h with _ h
      exact Or.inr ⟨rfl, h.symm⟩
    · rw [hp, if_pos rfl] at h
      rcases hr : rd d with e | x
      · rw [hr] at h
        cases h
      · rw [hr] at h
        injection h with _ h
        exact Or.inl ⟨rfl, x, rfl, h.symm⟩
  unfold loadTextKernel at h
  split at h
  · cases h
  · injection h with h
    cases h
  · rename_i d hd
    injection h with h
    refine ⟨d, hd, ?_⟩
    obtain ⟨c1, h1, h⟩ := and_ok h
    obtain ⟨c2, h2, h⟩ := and_ok h
    obtain ⟨c3, h3, h⟩ := and_ok h
    obtain ⟨c4, h4, h5⟩ := and_ok h
    rcases step_ok h1 with ⟨p1, x1, r1, rfl⟩ | ⟨p1, rfl⟩ <;>
    rcases step_ok h2 with ⟨p2, x2, r2, rfl⟩ | ⟨p2, rfl⟩ <;>
    rcases step_ok h3 with ⟨p3, x3, r3, rfl⟩ | ⟨p3, rfl⟩ <;>
    rcases step_ok h4 with ⟨p4, x4, r4, rfl⟩ | ⟨p4, rfl⟩ <;>
    rcases step_ok h5 with ⟨p5, x5, r5, rfl⟩ | ⟨p5, rfl⟩ <;>
    simp [*]

/-- A text without any of the known variables is accepted and adds nothing. -/
theorem unknown_text_accepted {label text : Str} {c : Ctx Spk Ck} {d : Data} (h : parse text = some (.ok d))
    (h1 : hasLsk d = false) (h2 : hasFk d = false) (h3 : hasPck d = false) (h4 : hasSclk d = false)
    (h5 : hasIk d = false) : loadTextKernel label text c = some (.ok (), c) := by
  unfold loadTextKernel
  rw [h]
  simp [andThen, loadLsk, loadFk, loadPck, loadSclk, loadIk, step, h1, h2, h3, h4, h5]

/-- The kinds of binary kernels: two are given to their readers and appended, four are refused. -/
theorem binary_load (E : Env Spk Ck) (label : Str) (bytes : List UInt8) (c : Ctx Spk Ck) :
    ("DAF/SPK".toList <+: locator E bytes → ∀ k, E.spk bytes = .ok k →
      loadBytes E label bytes c = some (.ok (), { c with spk := c.spk ++ [(label, k)] })) ∧
    ("DAF/CK".toList <+: locator E bytes → ∀ k, E.ck bytes = .ok k →
      loadBytes E label bytes c = some (.ok (), { c with ck := c.ck ++ [(label, k)] })) ∧
    ((∃ k ∈ ["DAF/PCK", "DAF/BPC", "DAF/DSK", "DAF/EK"], k.toList <+: locator E bytes) →
      loadBytes E label bytes c = some (.error .unsupported, c)) ∧
    ((∀ k ∈ ["DAF/SPK", "DAF/CK", "DAF/PCK", "DAF/BPC", "DAF/DSK", "DAF/EK"], ¬ k.toList <+: locator E bytes) →
      ∀ t, E.utf8 bytes = some t → loadBytes E label bytes c = loadTextKernel label t c) := by
  have diff : ∀ {p q l : Str}, p <+: l → q <+: l → p.take 6 <+: q ∨ q <+: p.take 6 := by
    intro p q l h1 h2
    exact List.prefix_or_prefix_of_prefix ((List.take_prefix 6 p).trans h1) h2
  refine ⟨?_, ?_, ?_, ?_⟩
  · intro h k hk
    unfold loadBytes
    dsimp only
    rw [if_pos (List.isPrefixOf_iff_prefix.mpr h), hk]
  · intro h k hk
    unfold loadBytes
    dsimp only
    rw [if_neg, if_pos (List.isPrefixOf_iff_prefix.mpr h), hk]
    rw [List.isPrefixOf_iff_prefix]
    intro h2
    exact absurd (diff h h2) (by decide)
  · rintro ⟨k, hk, h⟩
    have n1 : ¬ "DAF/SPK".toList.isPrefixOf (locator E bytes) = true := by
      rw [List.isPrefixOf_iff_prefix]
      intro h2
      have := diff h2 h
      simp only [List.mem_cons, List.not_mem_nil, or_false] at hk
      rcases hk with rfl | rfl | rfl | rfl <;> exact absurd this (by decide)
    have n2 : ¬ "DAF/CK".toList.isPrefixOf (locator E bytes) = true := by
      rw [List.isPrefixOf_iff_prefix]
      intro h2
      have := diff h2 h
      simp only [List.mem_cons, List.not_mem_nil, or_false] at hk
      rcases hk with rfl | rfl | rfl | rfl <;> exact absurd this (by decide)
    unfold loadBytes
    dsimp only
    rw [if_neg n1, if_neg n2]
    split
    · rfl
    · rename_i n3
      rw [if_pos]
      simp only [Bool.or_eq_true, List.isPrefixOf_iff_prefix, not_or] at n3 ⊢
      simp only [List.mem_cons, List.not_mem_nil, or_false] at hk
      rcases hk with rfl | rfl | rfl | rfl
      · exact absurd h n3.1
      · exact absurd h n3.2
      · exact Or.inl h
      · exact Or.inr h
  · intro h t ht
    simp only [List.mem_cons, List.not_mem_nil, or_false, forall_eq_or_imp, forall_eq, ← List.isPrefixOf_iff_prefix] at h
    obtain ⟨h1, h2, h3, h4, h5, h6⟩ := h
    unfold loadBytes
    dsimp only
    rw [if_neg h1, if_neg h2, if_neg (by rw [Bool.or_eq_true]; exact not_or.mpr ⟨h3, h4⟩),
      if_neg (by rw [Bool.or_eq_true]; exact not_or.mpr ⟨h5, h6⟩), ht]

example : "DAF/PCK".toList <+: locator (⟨fun b => some (b.map (fun x => Char.ofNat x.toNat)), fun _ => .error .syntax,
    fun _ => .error .syntax⟩ : Env Unit Unit) [68, 65, 70, 47, 112, 99, 107, 32, 0] := by decide

/-- A refused binary kernel leaves the context as it was. -/
theorem binary_refused_unchanged (E : Env Spk Ck) (label : Str) (bytes : List UInt8) (c : Ctx Spk Ck)
    (hl : "DAF/".toList.isPrefixOf (locator E bytes) = true)
    (hk : ∃ k ∈ ["SPK", "CK", "PCK", "BPC", "DSK", "EK"], ("DAF/".toList ++ k.toList).isPrefixOf (locator E bytes) = true)
    {e : LErr} {c' : Ctx Spk Ck} (h : loadBytes E label bytes c = some (.error e, c')) : c' = c := by
  obtain ⟨k, hk, hp⟩ := hk
  have same : ∀ {r : Except LErr Unit} {x : Ctx Spk Ck}, some (r, x) = some (.error e, c') → c' = x := by
    intro r x h
    injection h with h
    injection h with _ h
    exact h.symm
  unfold loadBytes at h
  dsimp only at h
  split at h
  · split at h
    · exact same h
    · injection h with h
      cases h
  · rename_i n1
    split at h
    · split at h
      · exact same h
      · injection h with h
        cases h
    · rename_i n2
      split at h
      · exact same h
      · rename_i n3
        split at h
        · exact same h
        · rename_i n4
          exfalso
          simp only [List.mem_cons, List.not_mem_nil, or_false] at hk
          rw [Bool.or_eq_true, not_or] at n3 n4
          rcases hk with rfl | rfl | rfl | rfl | rfl | rfl
          · exact n1 hp
          · exact n2 hp
          · exact n3.1 hp
          · exact n3.2 hp
          · exact n4.1 hp
          · exact n4.2 hp

/-- A failed load is not undone: the leap seconds of a text are in force although the text was refused for its
frames. -/
theorem failed_load_kept (c : Ctx Spk Ck) :
    ∃ c', loadTextKernel "k".toList
        "\\begindata\nDELTET/DELTA_T_A = 32.184\nDELTET/DELTA_AT = ( 10, @1972-JAN-1 )\nFRAME_5_NAME = 'A'\n".toList c =
      some (.error (.kernel (.missing "FRAME_5_CLASS".toList)), c') ∧
      c'.lsk = some ("k".toList, ⟨.num (32184 / 1000), [(.num (-883656000), .num 10)]⟩) := by
  have hp : parse "\\begindata\nDELTET/DELTA_T_A = 32.184\nDELTET/DELTA_AT = ( 10, @1972-JAN-1 )\nFRAME_5_NAME = 'A'\n".toList =
      some (.ok [("DELTET/DELTA_T_A".toList, .float (.num (32184 / 1000))),
        ("DELTET/DELTA_AT".toList, .array [.int 10, .text "@1972-JAN-1".toList]),
        ("FRAME_5_NAME".toList, .text "A".toList)]) := by
    decide +kernel
  unfold loadTextKernel
  rw [hp]
  refine ⟨{ c with lsk := some ("k".toList, ⟨.num (32184 / 1000), [(.num (-883656000), .num 10)]⟩) }, ?_, rfl⟩
  have h1 : lskOf [("DELTET/DELTA_T_A".toList, .float (.num (32184 / 1000))),
        ("DELTET/DELTA_AT".toList, .array [.int 10, .text "@1972-JAN-1".toList]),
        ("FRAME_5_NAME".toList, .text "A".toList)] = .ok ⟨.num (32184 / 1000), [(.num (-883656000), .num 10)]⟩ := by
    decide +kernel
  have h2 : framesOf [("DELTET/DELTA_T_A".toList, .float (.num (32184 / 1000))),
        ("DELTET/DELTA_AT".toList, .array [.int 10, .text "@1972-JAN-1".toList]),
        ("FRAME_5_NAME".toList, .text "A".toList)] = .error (.missing "FRAME_5_CLASS".toList) := by
    decide +kernel
  have h3 : hasLsk [("DELTET/DELTA_T_A".toList, .float (.num (32184 / 1000))),
        ("DELTET/DELTA_AT".toList, .array [.int 10, .text "@1972-JAN-1".toList]),
        ("FRAME_5_NAME".toList, .text "A".toList)] = true := by
    decide +kernel
  have h4 : hasFk [("DELTET/DELTA_T_A".toList, .float (.num (32184 / 1000))),
        ("DELTET/DELTA_AT".toList, .array [.int 10, .text "@1972-JAN-1".toList]),
        ("FRAME_5_NAME".toList, .text "A".toList)] = true := by
    decide +kernel
  simp only [andThen, loadLsk, loadFk, step, h1, h2, h3, h4, if_true]

/-- Variables that a reader would use but that the detection does not look for: the file is accepted and the
instrument and the body are not there. -/
theorem undetected_kinds :
    ikFromText "\\begindata\nINS-1_BORESIGHT = ( 0, 0, 1 )\n".toList =
      some (.ok [⟨-1, none, none, some [.num 0, .num 0, .num 1], none, none⟩]) ∧
    ∀ c : Ctx Spk Ck, loadTextKernel "k".toList "\\begindata\nINS-1_BORESIGHT = ( 0, 0, 1 )\nBODY399_PM = ( 1, 2 )\n".toList c =
      some (.ok (), c) := by
  constructor
  · decide +kernel
  · intro c
    have hp : parse "\\begindata\nINS-1_BORESIGHT = ( 0, 0, 1 )\nBODY399_PM = ( 1, 2 )\n".toList =
        some (.ok [("INS-1_BORESIGHT".toList, .array [.int 0, .int 0, .int 1]), ("BODY399_PM".toList, .array [.int 1, .int 2])]) := by
      decide +kernel
    exact unknown_text_accepted hp (by decide +kernel) (by decide +kernel) (by decide +kernel) (by decide +kernel)
      (by decide +kernel)

/-- The readers behind the leap-second and frame detection agree with reading the text on its own. -/
theorem lsk_agrees {src : Str} {d : Data} (h : parse src = some (.ok d)) (x : Lsk) :
    lskFromText src = some (.ok x) ↔ lskOf d = .ok x := by
  unfold lskFromText lskOf
  rw [h]
  simp only
  rcases get d "DELTET/DELTA_T_A".toList with _ | v
  · simp
  · rcases hs : scalarAsF64 v with e | a
    · simp [hs]
    · simp only [hs]
      rcases get d "DELTET/DELTA_AT".toList with _ | (i | f | t | l)
      · simp
      · simp
      · simp
      · simp
      · rcases hl : leapPairs l with e | t
        · simp [hl]
        · simp [hl]

/-! ### From a loaded frame to its rotation -/

/-- The real number of a value. -/
noncomputable def realOf : F64 → ℝ
  | .num q => q
  | _ => 0

/-- Rows of values as a matrix. -/
noncomputable def matrixOf (m : List (List F64)) : Frames.M3 :=
  fun i j => realOf ((m.getD i []).getD j (.num 0))

/-- A record as the rotation queries see it. -/
noncomputable def asFrame (f : FrameSpec) : Frames.Frame :=
  ⟨f.id, f.name, f.cls, f.classId, f.tk.map (fun t => (matrixOf t.1, t.2))⟩

/-- The rotation of a frame declared by a matrix relative to the built-in frame is the matrix as written, by
rows, whatever was loaded before. -/
theorem written_rotation {x : Decl} {t : TkDecl} (ht : x.tk = some t) (hid : x.id ≠ 1)
    (hname : upper t.relative = "J2000".toList) (hn : upper x.name ≠ "J2000".toList)
    {before : List FrameSpec} (hb : ∀ f ∈ before, f.name ≠ "J2000".toList) (pcks : List Frames.Pck) (tdb : ℝ) :
    ∃ m, Frames.rotationNaif ⟨Frames.j2000 :: (before ++ [recordOf x]).map asFrame, pcks⟩ tdb 2 x.id 1 = some (.ok m) ∧
      ∀ i j, m i j = (fixedValue ((t.m i j).1 + 1) (t.m i j).2 : ℚ) := by
  have up : upper "J2000".toList = "J2000".toList := by decide
  set c : Frames.Ctx := ⟨Frames.j2000 :: (before ++ [recordOf x]).map asFrame, pcks⟩ with hc
  have h1 : Frames.frameById c x.id = some (asFrame (recordOf x)) := by
    unfold Frames.frameById
    rw [hc]
    dsimp only
    rw [List.map_append, List.reverse_cons, List.reverse_append, List.map_singleton, List.reverse_singleton,
      List.singleton_append, List.cons_append, List.find?_cons]
    simp [asFrame, recordOf]
  have h2 : Frames.frameByName c (upper t.relative) = some Frames.j2000 := by
    unfold Frames.frameByName
    rw [hname, up, hc]
    dsimp only
    rw [List.reverse_cons, List.find?_append]
    have : ((before ++ [recordOf x]).map asFrame).reverse.find? (fun f => decide (f.name = "J2000".toList)) = none := by
      rw [List.find?_eq_none]
      intro f hf
      rw [List.mem_reverse, List.mem_map] at hf
      obtain ⟨g, hg, rfl⟩ := hf
      rw [List.mem_append, List.mem_singleton] at hg
      rw [decide_eq_true_eq]
      rcases hg with hg | rfl
      · exact hb g hg
      · exact hn
    rw [this]
    rfl
  have h3 : (asFrame (recordOf x)).tk = some (matrixOf [[entryValue (t.m 0 0), entryValue (t.m 0 1), entryValue (t.m 0 2)],
      [entryValue (t.m 1 0), entryValue (t.m 1 1), entryValue (t.m 1 2)],
      [entryValue (t.m 2 0), entryValue (t.m 2 1), entryValue (t.m 2 2)]], upper t.relative) := by
    simp [asFrame, recordOf, ht]
  have h4 : Frames.frameToJ2000 c tdb 1 1 = some (.ok Frames.identity3) := rfl
  have h4' : Frames.frameToJ2000 c tdb 2 1 = some (.ok Frames.identity3) := rfl
  have h5 : Frames.frameToJ2000 c tdb 2 x.id = some (.ok (Frames.mat3Mul Frames.identity3
      (matrixOf [[entryValue (t.m 0 0), entryValue (t.m 0 1), entryValue (t.m 0 2)],
      [entryValue (t.m 1 0), entryValue (t.m 1 1), entryValue (t.m 1 2)],
      [entryValue (t.m 2 0), entryValue (t.m 2 1), entryValue (t.m 2 2)]]))) := by
    rw [Frames.frameToJ2000, if_neg hid, h1]
    simp only [h3, h2]
    rw [show Frames.j2000.id = 1 from rfl, h4]
  refine ⟨Frames.mat3Mul (Frames.mat3Transpose Frames.identity3) (Frames.mat3Mul Frames.identity3
    (matrixOf [[entryValue (t.m 0 0), entryValue (t.m 0 1), entryValue (t.m 0 2)],
      [entryValue (t.m 1 0), entryValue (t.m 1 1), entryValue (t.m 1 2)],
      [entryValue (t.m 2 0), entryValue (t.m 2 1), entryValue (t.m 2 2)]])), ?_, ?_⟩
  · unfold Frames.rotationNaif
    rw [if_neg hid, h5, h4']
  · intro i j
    fin_cases i <;> fin_cases j <;>
      simp [Frames.mat3Mul, Frames.mat3Transpose, Frames.identity3, Frames.rows, matrixOf, realOf, entryValue]

example : ∃ m, Frames.rotationNaif ⟨Frames.j2000 :: (([⟨-82, "BUS".toList, .ck, -82, -82, none⟩] : List FrameSpec) ++
    [recordOf ⟨7, "Cam".toList, .twoVector, 7, -82, some ⟨fun i j => (3, i + 2 * j), "j2000".toList⟩⟩]).map asFrame, []⟩ 0 2 7 1 =
      some (.ok m) ∧ m 1 2 = 5 := by
  obtain ⟨m, h1, h2⟩ := written_rotation (x := ⟨7, "Cam".toList, .twoVector, 7, -82, some ⟨fun i j => (3, i + 2 * j), "j2000".toList⟩⟩)
    (t := ⟨fun i j => (3, i + 2 * j), "j2000".toList⟩) rfl (by decide) (by decide) (by decide)
    (before := [⟨-82, "BUS".toList, .ck, -82, -82, none⟩]) (by decide) [] 0
  refine ⟨m, h1, ?_⟩
  rw [h2]
  have h3 : fixedValue 4 ((1 : ℚ) + 2 * 2) = 5 := by decide +kernel
  simp [h3]

end Verif.Kernels.Props
