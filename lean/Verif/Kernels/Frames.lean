import Verif.Kernels.Lemmas

/-
Frame and instrument kernels: what a reader returns, as a relation between the variables and the records.
-/
namespace Verif.Kernels
open Verif.Text Verif.TextKernel Verif.TextKernel.Spec

/-! ### Specification -/

/-- The variable `{prefix}{id}{suffix}`. -/
def var (pre : String) (i : Int) (suf : String) : Str := pre.toList ++ (scalarText (.int i) ++ suf.toList)

/-- Rounding towards zero. -/
def TowardsZero (q : ℚ) (n : Int) : Prop :=
  (0 ≤ q → (n : ℚ) ≤ q ∧ q < n + 1) ∧ (q < 0 → q ≤ (n : ℚ) ∧ (n : ℚ) - 1 < q)

/-- A value stands for an integer of 32 bits: an integer as it is, a decimal number without its fraction, one
out of range at the nearest end. -/
def StandsFor : TextValue → Int → Prop
  | .int i, n => n = i ∧ IsI32 i
  | .float (.num q), n =>
    (q < -(2 ^ 31) ∧ n = -(2 ^ 31)) ∨ (2 ^ 31 ≤ q ∧ n = 2 ^ 31 - 1) ∨ (-(2 ^ 31) ≤ q ∧ q < 2 ^ 31 ∧ TowardsZero q n)
  | .float (.inf true), n => n = -(2 ^ 31)
  | .float (.inf false), n => n = 2 ^ 31 - 1
  | .float .nan, n => n = 0
  | _, _ => False

/-- The class numbers of fk.rs 26-37. -/
def classNumber : Frames.FrameClass → Int
  | .inertial => 1
  | .pck => 2
  | .ck => 3
  | .twoVector => 4
  | .dynamic => 5

/-- A record says what the variables `val` say about the frame. -/
structure Describes (val : Str → Option TextValue) (f : FrameSpec) : Prop where
  name : ∃ n, val (var "FRAME_" f.id "_NAME") = some (.text n) ∧ f.name = upper n
  cls : ∃ v, val (var "FRAME_" f.id "_CLASS") = some v ∧ StandsFor v (classNumber f.cls)
  classId : ∃ v, val (var "FRAME_" f.id "_CLASS_ID") = some v ∧ StandsFor v f.classId
  center : ∃ v, val (var "FRAME_" f.id "_CENTER") = some v ∧ StandsFor v f.centerId
  /-- only class 4 has a matrix, and only if a specification is given -/
  plain : f.cls ≠ .twoVector ∨ val (var "TKFRAME_" f.id "_SPEC") = none → f.tk = none
  /-- the nine numbers by rows, and the frame they refer to -/
  matrix : f.cls = .twoVector → val (var "TKFRAME_" f.id "_SPEC") ≠ none →
    val (var "TKFRAME_" f.id "_SPEC") = some (.text "MATRIX".toList) ∧
      ∃ a b c e g h i j k r, val (var "TKFRAME_" f.id "_RELATIVE") = some (.text r) ∧
        (∃ l, val (var "TKFRAME_" f.id "_MATRIX") = some (.array l) ∧
          flatten l = some [a, b, c, e, g, h, i, j, k]) ∧
        f.tk = some ([[a, b, c], [e, g, h], [i, j, k]], upper r)

/-- The identifiers named by variables `{prefix}{id}{suffix}`. -/
def Named (d : Data) (pre suf : String) (i : Int) : Prop :=
  ∃ t v, (pre.toList ++ t ++ suf.toList, v) ∈ d ∧ parseInt (2 ^ 31 - 1) t = some i

/-! ### Proofs -/

theorem toZero_floor {q : ℚ} (h : 0 ≤ q) {n : Int} : TowardsZero q n ↔ n = ⌊q⌋ := by
  unfold TowardsZero
  constructor
  · rintro ⟨h1, _⟩
    have := h1 h
    exact (Int.floor_eq_iff.mpr this).symm
  · rintro rfl
    exact ⟨fun _ => ⟨Int.floor_le q, Int.lt_floor_add_one q⟩, fun hn => absurd hn (not_lt.mpr h)⟩

theorem toZero_ceil {q : ℚ} (h : q < 0) {n : Int} : TowardsZero q n ↔ n = ⌈q⌉ := by
  unfold TowardsZero
  constructor
  · rintro ⟨_, h1⟩
    have := h1 h
    exact (Int.ceil_eq_iff.mpr ⟨this.2, this.1⟩).symm
  · rintro rfl
    refine ⟨fun hn => absurd h (not_lt.mpr hn), fun _ => ⟨Int.le_ceil q, ?_⟩⟩
    linarith [Int.ceil_lt_add_one q]

theorem asI32_num (q : ℚ) (n : Int) : f64AsI32 (.num q) = n ↔ StandsFor (.float (.num q)) n := by
  show (if (if 0 ≤ q then ⌊q⌋ else ⌈q⌉) < -(2 ^ 31) then -(2 ^ 31)
    else if 2 ^ 31 - 1 < (if 0 ≤ q then ⌊q⌋ else ⌈q⌉) then 2 ^ 31 - 1 else (if 0 ≤ q then ⌊q⌋ else ⌈q⌉)) = n ↔
    (q < -(2 ^ 31) ∧ n = -(2 ^ 31)) ∨ (2 ^ 31 ≤ q ∧ n = 2 ^ 31 - 1) ∨ (-(2 ^ 31) ≤ q ∧ q < 2 ^ 31 ∧ TowardsZero q n)
  by_cases h0 : 0 ≤ q
  · rw [if_pos h0, toZero_floor h0]
    have hfl : (0 : Int) ≤ ⌊q⌋ := Int.floor_nonneg.mpr h0
    rw [if_neg (by omega)]
    have h1 : ¬ q < -(2 ^ 31) := by linarith
    have h2 : -(2 ^ 31) ≤ q := by linarith
    by_cases hb : (2 : ℚ) ^ 31 ≤ q
    · have : (2 ^ 31 : Int) ≤ ⌊q⌋ := Int.le_floor.mpr (by push_cast; exact hb)
      rw [if_pos (by omega)]
      have h3 : ¬ q < 2 ^ 31 := not_lt.mpr hb
      simp only [h1, h3, hb, false_and, and_false, or_false, false_or, true_and]
      exact eq_comm
    · have : ⌊q⌋ < (2 ^ 31 : Int) := Int.floor_lt.mpr (by push_cast; exact not_le.mp hb)
      rw [if_neg (by omega)]
      have h3 : q < 2 ^ 31 := not_le.mp hb
      simp only [h1, h2, h3, hb, false_and, false_or, true_and]
      exact eq_comm
  · have hq : q < 0 := not_le.mp h0
    rw [if_neg h0, toZero_ceil hq]
    have hce : ⌈q⌉ ≤ (0 : Int) := Int.ceil_le.mpr (by push_cast; exact hq.le)
    have hb : ¬ (2 : ℚ) ^ 31 ≤ q := by
      intro h
      linarith [pow_pos (show (0 : ℚ) < 2 by norm_num) 31]
    have h3 : q < 2 ^ 31 := not_le.mp hb
    by_cases hl : q < -(2 ^ 31)
    · have hle : ⌈q⌉ ≤ (-(2 ^ 31) : Int) := Int.ceil_le.mpr (by push_cast; exact hl.le)
      have h2 : ¬ -(2 ^ 31) ≤ q := not_le.mpr hl
      simp only [hl, h2, hb, false_and, or_false, true_and]
      by_cases he : ⌈q⌉ < -(2 ^ 31)
      · rw [if_pos he]
        exact eq_comm
      · rw [if_neg he, if_neg (by omega)]
        have : ⌈q⌉ = -(2 ^ 31) := by omega
        rw [this]
        exact eq_comm
    · have h2 : -(2 ^ 31) ≤ q := not_lt.mp hl
      have hge : ¬ ⌈q⌉ < (-(2 ^ 31) : Int) := by
        intro h
        have : ((⌈q⌉ : Int) : ℚ) ≤ -(2 ^ 31) - 1 := by
          have h' : ⌈q⌉ ≤ (-(2 ^ 31) - 1 : Int) := by omega
          have := (Int.cast_le (R := ℚ)).mpr h'
          push_cast at this
          linarith
        linarith [Int.le_ceil q]
      rw [if_neg hge, if_neg (by omega)]
      simp only [hl, hb, h2, h3, false_and, false_or, true_and]
      exact eq_comm

theorem intValue_ok {v : TextValue} {k : Str} {n : Int} : intValue v k = .ok n ↔ StandsFor v n := by
  cases v with
  | int i =>
    show (if -(2 ^ 31) ≤ i ∧ i ≤ 2 ^ 31 - 1 then (.ok i : K Int) else .error (.tooLarge k)) = .ok n ↔ n = i ∧ IsI32 i
    unfold IsI32
    split
    · rename_i h
      simp only [Except.ok.injEq]
      constructor
      · rintro rfl
        exact ⟨rfl, h.1, by omega⟩
      · exact fun h => h.1.symm
    · rename_i h
      simp only [reduceCtorEq, false_iff]
      rintro ⟨_, h1, h2⟩
      exact h ⟨h1, by omega⟩
  | float x =>
    show (Except.ok (f64AsI32 x) : K Int) = .ok n ↔ _
    rw [Except.ok.injEq]
    cases x with
    | num q => exact asI32_num q n
    | inf b =>
      cases b
      · show (2 ^ 31 - 1 : Int) = n ↔ n = 2 ^ 31 - 1
        exact eq_comm
      · show (-(2 ^ 31) : Int) = n ↔ n = -(2 ^ 31)
        exact eq_comm
    | nan =>
      show (0 : Int) = n ↔ n = 0
      exact eq_comm
  | text t => simp [intValue, StandsFor]
  | array l => simp [intValue, StandsFor]

theorem class_ok {c : Int} {x : Frames.FrameClass} : parseFrameClass c = .ok x ↔ classNumber x = c := by
  unfold parseFrameClass
  constructor
  · intro h
    repeat' split at h
    all_goals first | (injection h with h; subst h; simp_all [classNumber]) | cases h
  · intro h
    subst h
    cases x <;> rfl

theorem standsFor_unique {v : TextValue} {a b : Int} (h1 : StandsFor v a) (h2 : StandsFor v b) : a = b := by
  have h1 := (intValue_ok (k := [])).mpr h1
  rw [(intValue_ok (k := [])).mpr h2] at h1
  injection h1 with h1
  exact h1.symm

theorem frameKey_eq (i : Int) (s : String) (s' : String) (h : s'.toList = '_' :: s.toList) :
    frameKey i s.toList = var "FRAME_" i s' := by
  unfold frameKey var
  rw [h, List.append_assoc]
  rfl

theorem tkKey_eq (i : Int) (s : String) (s' : String) (h : s'.toList = '_' :: s.toList) :
    tkKey i s.toList = var "TKFRAME_" i s' := by
  unfold tkKey var
  rw [h, List.append_assoc]
  rfl

theorem array_ok {d : Data} {k : Str} {xs : List F64} (h : 2 ≤ xs.length) :
    getF64Array d k = some xs ↔ ∃ l, get d k = some (.array l) ∧ flatten l = some xs := by
  unfold getF64Array
  rcases get d k with _ | v
  · simp
  · cases v with
    | int i =>
      simp only [Option.some.injEq, reduceCtorEq, false_and, exists_false, iff_false]
      rintro rfl
      simp at h
    | float i =>
      simp only [Option.some.injEq, reduceCtorEq, false_and, exists_false, iff_false]
      rintro rfl
      simp at h
    | text t => simp
    | array l => simp

theorem readMatrix_ok {d : Data} {i : Int} {r : List (List F64) × Str} :
    readMatrix d i = .ok r ↔ ∃ a b c e g h i' j k n, get d (var "TKFRAME_" i "_RELATIVE") = some (.text n) ∧
        (∃ l, get d (var "TKFRAME_" i "_MATRIX") = some (.array l) ∧
          flatten l = some [a, b, c, e, g, h, i', j, k]) ∧
        r = ([[a, b, c], [e, g, h], [i', j, k]], upper n) := by
  unfold readMatrix
  rw [tkKey_eq i "MATRIX" "_MATRIX" rfl, tkKey_eq i "RELATIVE" "_RELATIVE" rfl]
  constructor
  · intro h
    split at h
    · cases h
    · rename_i x a b c e g h' i' j k hx
      rw [bind_ok] at h
      obtain ⟨v, hv, h⟩ := h
      rw [bind_ok] at h
      obtain ⟨n, hn, h⟩ := h
      injection h with h
      rw [need_ok] at hv
      rw [textValue_ok] at hn
      subst hn
      exact ⟨a, b, c, e, g, h', i', j, k, n, hv, (array_ok (by simp)).mp hx, h.symm⟩
    · cases h
  · rintro ⟨a, b, c, e, g, h', i', j, k, n, hv, hx, rfl⟩
    rw [(array_ok (by simp)).mpr hx]
    simp only
    rw [bind_of (need_ok.mpr hv), bind_of (textValue_ok.mpr rfl)]

/-- One frame: the reader returns a record exactly if the record says what the variables say. -/
theorem readFrame_ok {d : Data} {i : Int} {f : FrameSpec} :
    readFrame d i = .ok f ↔ f.id = i ∧ Describes (get d) f := by
  unfold readFrame
  rw [frameKey_eq i "NAME" "_NAME" rfl, frameKey_eq i "CLASS" "_CLASS" rfl,
    frameKey_eq i "CLASS_ID" "_CLASS_ID" rfl, frameKey_eq i "CENTER" "_CENTER" rfl]
  simp only [bind_ok, need_ok, textValue_ok, intValue_ok, class_ok]
  constructor
  · rintro ⟨v1, h1, n, rfl, v2, h2, c, h3, cls, h4, v3, h5, cid, h6, v4, h7, cen, h8, tk, h9, h10⟩
    injection h10 with h10
    subst h10
    subst h4
    refine ⟨rfl, ⟨⟨n, h1, rfl⟩, ⟨v2, h2, h3⟩, ⟨v3, h5, h6⟩, ⟨v4, h7, h8⟩, ?_, ?_⟩⟩
    · show cls ≠ .twoVector ∨ get d (var "TKFRAME_" i "_SPEC") = none → tk = none
      intro h
      unfold readTk at h9
      rw [tkKey_eq i "SPEC" "_SPEC" rfl] at h9
      split at h9
      · rename_i hc
        rcases h with h | h
        · exact absurd hc h
        · rw [bind_of (optional_ok.mpr (Or.inl ⟨h, rfl⟩))] at h9
          injection h9 with h9
          exact h9.symm
      · injection h9 with h9
        exact h9.symm
    · show cls = .twoVector → get d (var "TKFRAME_" i "_SPEC") ≠ none → _
      intro hc hs
      unfold readTk at h9
      rw [tkKey_eq i "SPEC" "_SPEC" rfl, if_pos hc, bind_ok] at h9
      obtain ⟨o, ho, h9⟩ := h9
      rw [optional_ok] at ho
      rcases ho with ⟨ho, _⟩ | ⟨v, x, hv, hx, rfl⟩
      · exact absurd ho hs
      · rw [textValue_ok] at hx
        subst hx
        simp only at h9
        split at h9
        · rename_i hm
          subst hm
          rw [map_ok] at h9
          obtain ⟨r, hr, rfl⟩ := h9
          rw [readMatrix_ok] at hr
          obtain ⟨a, b, c, e, g, h', i', j, k, n', hv', hx', rfl⟩ := hr
          exact ⟨hv, a, b, c, e, g, h', i', j, k, n', hv', hx', rfl⟩
        · cases h9
  · rintro ⟨rfl, ⟨n, h1, hn⟩, ⟨v2, h2, h3⟩, ⟨v3, h5, h6⟩, ⟨v4, h7, h8⟩, hp, hm⟩
    refine ⟨_, h1, n, rfl, v2, h2, _, h3, f.cls, rfl, v3, h5, _, h6, v4, h7, _, h8, f.tk, ?_, ?_⟩
    · unfold readTk
      rw [tkKey_eq f.id "SPEC" "_SPEC" rfl]
      by_cases hc : f.cls = .twoVector
      · rw [if_pos hc]
        rcases hs : get d (var "TKFRAME_" f.id "_SPEC") with _ | v
        · rw [bind_of (optional_ok.mpr (Or.inl ⟨hs, rfl⟩)), hp (Or.inr hs)]
        · obtain ⟨hs', a, b, c, e, g, h', i', j, k, n', hv', hx', htk⟩ := hm hc (by rw [hs]; simp)
          rw [hs] at hs'
          injection hs' with hs'
          subst hs'
          rw [bind_of (optional_ok.mpr (Or.inr ⟨_, _, hs, textValue_ok.mpr rfl, rfl⟩))]
          simp only
          rw [if_pos trivial, map_ok]
          exact ⟨_, readMatrix_ok.mpr ⟨a, b, c, e, g, h', i', j, k, n', hv', hx', rfl⟩, htk.symm⟩
      · rw [if_neg hc, hp (Or.inl hc)]
    · cases f
      simp_all

theorem named_frame {d : Data} {i : Int} :
    i ∈ d.filterMap (fun kv => frameIdOf kv.1) ↔ Named d "FRAME_" "_NAME" i := by
  rw [List.mem_filterMap]
  unfold frameIdOf Named
  constructor
  · rintro ⟨⟨k, v⟩, hm, h⟩
    simp only [Option.bind_eq_some_iff, stripPrefix_some, stripSuffix_some] at h
    obtain ⟨r, h1, t, h2, h3⟩ := h
    refine ⟨t, v, ?_, h3⟩
    rw [List.append_assoc, ← h2, ← h1]
    exact hm
  · rintro ⟨t, v, hm, h⟩
    refine ⟨_, hm, ?_⟩
    simp only [Option.bind_eq_some_iff, stripPrefix_some, stripSuffix_some]
    exact ⟨t ++ "_NAME".toList, by rw [List.append_assoc], t, rfl, h⟩

/-- Loop, sorting and deduplication for any reader of records with identifiers. -/
theorem all_read {α : Type} {f : Int → K α} {idOf : α → Int} {P : α → Prop} {l : List Int}
    (hf : ∀ i x, f i = .ok x ↔ idOf x = i ∧ P x) {xs : List α} :
    readAll f (sortDedup l) = .ok xs ↔
      (xs.map idOf).Pairwise (· < ·) ∧ (∀ i, i ∈ xs.map idOf ↔ i ∈ l) ∧ ∀ x ∈ xs, P x := by
  rw [readAll_ok_iff]
  constructor
  · intro h
    have hm : xs.map idOf = sortDedup l := by
      clear * - h hf
      generalize sortDedup l = m at h ⊢
      induction h with
      | nil => rfl
      | cons h _ ih => rw [List.map_cons, ih, ((hf _ _).mp h).1]
    refine ⟨by rw [hm]; exact sortDedup_sorted l, fun i => by rw [hm, mem_sortDedup], ?_⟩
    clear hm
    generalize sortDedup l = m at h
    induction h with
    | nil => simp
    | cons h _ ih =>
      intro x hx
      rcases List.mem_cons.mp hx with rfl | hx
      · exact ((hf _ _).mp h).2
      · exact ih x hx
  · rintro ⟨h1, h2, h3⟩
    have hm : sortDedup l = xs.map idOf :=
      sorted_unique (sortDedup_sorted l) h1 (fun i => by rw [mem_sortDedup, h2])
    rw [hm]
    clear * - h3 hf
    induction xs with
    | nil => exact .nil
    | cons x xs ih =>
      exact .cons ((hf _ _).mpr ⟨rfl, h3 x List.mem_cons_self⟩) (ih (fun y hy => h3 y (List.mem_cons_of_mem _ hy)))

/-- Frames are read exactly so: one record for each identifier that is named, in increasing order, each saying
what the variables say about it. In particular the result does not depend on the order of the variables. -/
theorem frames_read {d : Data} {fs : List FrameSpec} :
    framesOf d = .ok fs ↔ (fs.map FrameSpec.id).Pairwise (· < ·) ∧
      (∀ i, i ∈ fs.map FrameSpec.id ↔ Named d "FRAME_" "_NAME" i) ∧ ∀ f ∈ fs, Describes (get d) f := by
  unfold framesOf
  rw [all_read (idOf := FrameSpec.id) (P := Describes (get d)) (fun i x => readFrame_ok)]
  simp only [named_frame]

end Verif.Kernels
