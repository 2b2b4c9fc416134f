import Verif.Kernels.Frames
import Verif.TextKernel.Leap

/-
Instrument and spacecraft clock kernels.
-/
namespace Verif.Kernels
open Verif.Text Verif.TextKernel Verif.TextKernel.Spec
open Verif.TextKernel.Props (leF_refl leF_total leF_trans)

/-! ### Specification -/

/-- A number, whole or decimal. -/
def NumberIs : TextValue → F64 → Prop
  | .int i, x => x = .num i
  | .float y, x => x = y
  | _, _ => False

/-- The shapes with a name of their own. -/
def shapeNames : List (FovShape × String) :=
  [(.circle, "CIRCLE"), (.rectangle, "RECTANGLE"), (.ellipse, "ELLIPSE"), (.polygon, "POLYGON")]

/-- The shape that a word in upper case names. -/
def ShapeIs (s : Str) (x : FovShape) : Prop :=
  (∃ p ∈ shapeNames, p.2.toList = s ∧ x = p.1) ∨ ((∀ p ∈ shapeNames, p.2.toList ≠ s) ∧ x = .other s)

/-- An optional variable: absent together with the field, or giving its value. -/
def Optional {α : Type} (v : Option TextValue) (o : Option α) (P : TextValue → α → Prop) : Prop :=
  (v = none ∧ o = none) ∨ ∃ w x, v = some w ∧ o = some x ∧ P w x

/-- A record says what the variables `val` say about the instrument. A boresight that is not numeric is
passed over. -/
structure DescribesIns (val : Str → Option TextValue) (x : Instrument) : Prop where
  shape : Optional (val (var "INS" x.id "_FOV_SHAPE")) x.shape (fun w s => ∃ t, w = .text t ∧ ShapeIs (upper t) s)
  frame : Optional (val (var "INS" x.id "_FOV_FRAME")) x.frame (fun w s => ∃ t, w = .text t ∧ s = upper t)
  boresight : (∃ a b c l, val (var "INS" x.id "_BORESIGHT") = some (.array l) ∧ flatten l = some [a, b, c] ∧
      x.boresight = some [a, b, c]) ∨
    (x.boresight = none ∧ (val (var "INS" x.id "_BORESIGHT") = none ∨
      (∃ t, val (var "INS" x.id "_BORESIGHT") = some (.text t)) ∨
      ∃ l, val (var "INS" x.id "_BORESIGHT") = some (.array l) ∧ flatten l = none))
  refAngle : Optional (val (var "INS" x.id "_FOV_REF_ANGLE")) x.refAngle NumberIs
  crossAngle : Optional (val (var "INS" x.id "_FOV_CROSS_ANGLE")) x.crossAngle NumberIs

/-- The numbers of a list of values, none nested. -/
def Numbers (l : List TextValue) (xs : List F64) : Prop := List.Forall₂ NumberIs l xs

/-- A clock says what its variable says: the numbers in threes, sorted by the second, equal ones in the order
of the file. -/
def DescribesClock (val : Str → Option TextValue) (x : Clock) : Prop :=
  ∃ (l : List TextValue) (cs : List Coeff), val (var "SCLK01_COEFFICIENTS_" x.scId "") = some (.array l) ∧
    Numbers l (cs.flatMap (fun c => [c.sclkdp, c.et, c.rate])) ∧
    x.coefficients.Pairwise (fun a b => leF a.et b.et = true) ∧
    ∀ e, x.coefficients.filter (fun c => c.et = e) = cs.filter (fun c => c.et = e)

/-- Identifiers named by variables `INS{id}_…`. -/
def NamedIns (d : Data) (i : Int) : Prop :=
  ∃ t s v, ("INS".toList ++ t ++ '_' :: s, v) ∈ d ∧ '_' ∉ t ∧ parseInt (2 ^ 31 - 1) t = some i

/-! ### Instruments -/

theorem scalarValue_ok {v : TextValue} {k : Str} {x : F64} : scalarValue v k = .ok x ↔ NumberIs v x := by
  cases v <;> simp [scalarValue, NumberIs, toF, eq_comm]

theorem shapeOf_is (s : Str) (x : FovShape) : shapeOf s = x ↔ ShapeIs s x := by
  unfold shapeOf ShapeIs shapeNames
  constructor
  · rintro rfl
    split
    · rename_i h
      exact Or.inl ⟨(.circle, "CIRCLE"), by simp, h.symm, rfl⟩
    · split
      · rename_i h
        exact Or.inl ⟨(.rectangle, "RECTANGLE"), by simp, h.symm, rfl⟩
      · split
        · rename_i h
          exact Or.inl ⟨(.ellipse, "ELLIPSE"), by simp, h.symm, rfl⟩
        · split
          · rename_i h
            exact Or.inl ⟨(.polygon, "POLYGON"), by simp, h.symm, rfl⟩
          · rename_i h1 h2 h3 h4
            refine Or.inr ⟨?_, rfl⟩
            intro p hp
            simp only [List.mem_cons, List.not_mem_nil, or_false] at hp
            rcases hp with rfl | rfl | rfl | rfl
            · exact Ne.symm h1
            · exact Ne.symm h2
            · exact Ne.symm h3
            · exact Ne.symm h4
  · rintro (⟨p, hp, rfl, rfl⟩ | ⟨h, rfl⟩)
    · simp only [List.mem_cons, List.not_mem_nil, or_false] at hp
      rcases hp with rfl | rfl | rfl | rfl <;> rfl
    · have h1 := h (.circle, "CIRCLE") (by simp)
      have h2 := h (.rectangle, "RECTANGLE") (by simp)
      have h3 := h (.ellipse, "ELLIPSE") (by simp)
      have h4 := h (.polygon, "POLYGON") (by simp)
      rw [if_neg (Ne.symm h1), if_neg (Ne.symm h2), if_neg (Ne.symm h3), if_neg (Ne.symm h4)]

theorem optional_is {α : Type} {d : Data} {k : Str} {f : TextValue → Str → K α} {P : TextValue → α → Prop}
    (h : ∀ v x, f v k = .ok x ↔ P v x) {o : Option α} :
    optional d k f = .ok o ↔ Optional (get d k) o P := by
  rw [optional_ok]
  unfold Optional
  simp only [h]
  constructor
  · rintro (h | ⟨v, x, h1, h2, h3⟩)
    · exact Or.inl h
    · exact Or.inr ⟨v, x, h1, h3, h2⟩
  · rintro (h | ⟨v, x, h1, h2, h3⟩)
    · exact Or.inl h
    · exact Or.inr ⟨v, x, h1, h3, h2⟩

theorem insKey_eq (i : Int) (s : String) (s' : String) (h : s'.toList = '_' :: s.toList) :
    insKey i s.toList = var "INS" i s' := by
  unfold insKey var
  rw [h, List.append_assoc]
  rfl

theorem boresight_ok {d : Data} {i : Int} {o : Option (List F64)} :
    readBoresight d i = .ok o ↔
      (∃ a b c l, get d (var "INS" i "_BORESIGHT") = some (.array l) ∧ flatten l = some [a, b, c] ∧
        o = some [a, b, c]) ∨
      (o = none ∧ (get d (var "INS" i "_BORESIGHT") = none ∨
        (∃ t, get d (var "INS" i "_BORESIGHT") = some (.text t)) ∨
        ∃ l, get d (var "INS" i "_BORESIGHT") = some (.array l) ∧ flatten l = none)) := by
  unfold readBoresight
  rw [insKey_eq i "BORESIGHT" "_BORESIGHT" rfl]
  constructor
  · intro h
    split at h
    · rename_i hx
      injection h with h
      refine Or.inr ⟨h.symm, ?_⟩
      unfold getF64Array at hx
      rcases hg : get d (var "INS" i "_BORESIGHT") with _ | v
      · exact Or.inl rfl
      · rw [hg] at hx
        cases v with
        | int i => simp at hx
        | float x => simp at hx
        | text t => exact Or.inr (Or.inl ⟨t, rfl⟩)
        | array l => exact Or.inr (Or.inr ⟨l, rfl, hx⟩)
    · rename_i x a b c hx
      injection h with h
      obtain ⟨l, h1, h2⟩ := (array_ok (by simp)).mp hx
      exact Or.inl ⟨a, b, c, l, h1, h2, h.symm⟩
    · cases h
  · rintro (⟨a, b, c, l, h1, h2, rfl⟩ | ⟨rfl, h⟩)
    · rw [(array_ok (by simp)).mpr ⟨l, h1, h2⟩]
    · have : getF64Array d (var "INS" i "_BORESIGHT") = none := by
        unfold getF64Array
        rcases h with h | ⟨t, h⟩ | ⟨l, h, h'⟩
        · rw [h]
        · rw [h]
        · rw [h]
          exact h'
      rw [this]

theorem readInstrument_ok {d : Data} {i : Int} {x : Instrument} :
    readInstrument d i = .ok x ↔ x.id = i ∧ DescribesIns (get d) x := by
  have hshape : ∀ k v s, parseShape v k = .ok s ↔ ∃ t, v = .text t ∧ ShapeIs (upper t) s := by
    intro k v s
    unfold parseShape
    rw [map_ok]
    simp only [textValue_ok, shapeOf_is]
  have hframe : ∀ k v s, upperText v k = .ok s ↔ ∃ t, v = .text t ∧ s = upper t := by
    intro k v s
    unfold upperText
    rw [map_ok]
    simp only [textValue_ok]
    simp only [eq_comm]
  unfold readInstrument
  rw [insKey_eq i "FOV_SHAPE" "_FOV_SHAPE" rfl, insKey_eq i "FOV_FRAME" "_FOV_FRAME" rfl,
    insKey_eq i "FOV_REF_ANGLE" "_FOV_REF_ANGLE" rfl, insKey_eq i "FOV_CROSS_ANGLE" "_FOV_CROSS_ANGLE" rfl]
  simp only [bind_ok, optional_is (hshape _), optional_is (hframe _), optional_is (fun v x => scalarValue_ok),
    boresight_ok]
  constructor
  · rintro ⟨s, h1, f, h2, b, h3, r, h4, c, h5, h6⟩
    injection h6 with h6
    subst h6
    exact ⟨rfl, h1, h2, h3, h4, h5⟩
  · rintro ⟨rfl, h1, h2, h3, h4, h5⟩
    exact ⟨_, h1, _, h2, _, h3, _, h4, _, h5, rfl⟩

theorem find1_some_iff {c : Char} {s a b : Str} : find1 c s = some (a, b) ↔ s = a ++ c :: b ∧ c ∉ a := by
  constructor
  · intro h
    induction s generalizing a with
    | nil => simp [find1] at h
    | cons x s ih =>
      rw [find1] at h
      split at h
      · rename_i hx
        injection h with h
        injection h with h1 h2
        subst h1 h2 hx
        simp
      · rename_i hx
        rw [Option.map_eq_some_iff] at h
        obtain ⟨⟨a', b'⟩, h1, h2⟩ := h
        injection h2 with h2 h3
        dsimp only at h2 h3
        subst h2
        subst h3
        obtain ⟨h4, h5⟩ := ih h1
        refine ⟨by rw [h4]; rfl, ?_⟩
        simp only [List.mem_cons, not_or]
        exact ⟨fun e => hx e.symm, h5⟩
  · rintro ⟨rfl, h⟩
    exact find1_append h b

theorem named_instrument {d : Data} {i : Int} :
    i ∈ d.filterMap (fun kv => insIdOf kv.1) ↔ NamedIns d i := by
  rw [List.mem_filterMap]
  unfold insIdOf NamedIns
  constructor
  · rintro ⟨⟨k, v⟩, hm, h⟩
    simp only [Option.bind_eq_some_iff, stripPrefix_some] at h
    obtain ⟨r, h1, ⟨t, s⟩, h2, h3⟩ := h
    rw [find1_some_iff] at h2
    refine ⟨t, s, v, ?_, h2.2, h3⟩
    rw [List.append_assoc, ← h2.1, ← h1]
    exact hm
  · rintro ⟨t, s, v, hm, hn, h⟩
    refine ⟨_, hm, ?_⟩
    simp only [Option.bind_eq_some_iff, stripPrefix_some]
    exact ⟨t ++ '_' :: s, by rw [List.append_assoc], (t, s), find1_some_iff.mpr ⟨rfl, hn⟩, h⟩

/-- Instruments are read exactly so: one record for each identifier that is named, in increasing order, each
saying what the variables say about it. -/
theorem instruments_read {d : Data} {xs : List Instrument} :
    instrumentsOf d = .ok xs ↔ (xs.map Instrument.id).Pairwise (· < ·) ∧
      (∀ i, i ∈ xs.map Instrument.id ↔ NamedIns d i) ∧ ∀ x ∈ xs, DescribesIns (get d) x := by
  unfold instrumentsOf
  rw [all_read (idOf := Instrument.id) (P := DescribesIns (get d)) (fun i x => readInstrument_ok)]
  simp only [named_instrument]

/-! ### Clocks -/

theorem flatInner_numbers {l : List TextValue} {xs : List F64} : flatInner l = some xs ↔ Numbers l xs := by
  unfold Numbers
  induction l generalizing xs with
  | nil => simp [flatInner, eq_comm]
  | cons v l ih =>
    rw [List.forall₂_cons_left_iff]
    cases v with
    | int i =>
      simp only [flatInner, Option.map_eq_some_iff, NumberIs, toF]
      constructor
      · rintro ⟨ys, h, rfl⟩
        exact ⟨_, ys, rfl, ih.mp h, rfl⟩
      · rintro ⟨y, ys, rfl, h, rfl⟩
        exact ⟨ys, ih.mpr h, rfl⟩
    | float x =>
      simp only [flatInner, Option.map_eq_some_iff, NumberIs]
      constructor
      · rintro ⟨ys, h, rfl⟩
        exact ⟨_, ys, rfl, ih.mp h, rfl⟩
      · rintro ⟨y, ys, rfl, h, rfl⟩
        exact ⟨ys, ih.mpr h, rfl⟩
    | text t => simp [flatInner, NumberIs]
    | array a => simp [flatInner, NumberIs]

theorem triples_ok {k : Str} : ∀ {xs : List F64} {cs : List Coeff},
    triples k xs = .ok cs ↔ xs = cs.flatMap (fun c => [c.sclkdp, c.et, c.rate])
  | [], cs => by
    simp only [triples, Except.ok.injEq]
    constructor
    · rintro rfl
      rfl
    · intro h
      cases cs with
      | nil => rfl
      | cons c cs => simp at h
  | [a], cs => by
    simp only [triples, reduceCtorEq, false_iff]
    intro h
    cases cs <;> simp at h
  | [a, b], cs => by
    simp only [triples, reduceCtorEq, false_iff]
    intro h
    cases cs <;> simp at h
  | a :: b :: c :: l, cs => by
    rw [triples, map_ok]
    constructor
    · rintro ⟨r, h, rfl⟩
      rw [triples_ok] at h
      rw [h]
      rfl
    · intro h
      cases cs with
      | nil => simp at h
      | cons x cs =>
        simp only [List.flatMap_cons, List.cons_append, List.nil_append, List.cons.injEq] at h
        obtain ⟨rfl, rfl, rfl, h⟩ := h
        exact ⟨cs, triples_ok.mpr h, rfl⟩

theorem insertCoeff_perm (x : Coeff) (l : List Coeff) : (insertCoeff x l).Perm (x :: l) := by
  induction l with
  | nil => exact .refl _
  | cons y l ih =>
    unfold insertCoeff
    split
    · exact .refl _
    · exact (ih.cons y).trans (.swap x y l)

theorem insertCoeff_sorted {x : Coeff} {l : List Coeff} (h : l.Pairwise (fun a b => leF a.et b.et = true)) :
    (insertCoeff x l).Pairwise (fun a b => leF a.et b.et = true) := by
  induction l with
  | nil => simp [insertCoeff]
  | cons y l ih =>
    have h' := h
    rw [List.pairwise_cons] at h
    unfold insertCoeff
    split
    · rename_i hx
      rw [List.pairwise_cons]
      refine ⟨?_, h'⟩
      intro b hb
      rcases List.mem_cons.mp hb with rfl | hb
      · exact hx
      · exact leF_trans hx (h.1 b hb)
    · rename_i hx
      rw [List.pairwise_cons]
      refine ⟨?_, ih h.2⟩
      intro b hb
      rcases List.mem_cons.mp ((insertCoeff_perm x l).mem_iff.mp hb) with rfl | hb
      · rcases leF_total b.et y.et with e | e
        · exact absurd e hx
        · exact e
      · exact h.1 b hb

theorem insertCoeff_filter (e : F64) (x : Coeff) (l : List Coeff) :
    (insertCoeff x l).filter (fun c => decide (c.et = e)) = (x :: l).filter (fun c => decide (c.et = e)) := by
  induction l with
  | nil => rfl
  | cons y l ih =>
    unfold insertCoeff
    split
    · rfl
    · rename_i hx
      have hne : ¬ (x.et = e ∧ y.et = e) := by
        rintro ⟨h1, h2⟩
        rw [h1, h2] at hx
        exact hx (leF_refl e)
      rw [List.filter_cons, ih]
      simp only [List.filter_cons]
      by_cases h1 : x.et = e
      · have h2 : ¬ y.et = e := fun h2 => hne ⟨h1, h2⟩
        simp [h1, h2]
      · simp [h1]

theorem sortCoeffs_facts (l : List Coeff) : (sortCoeffs l).Perm l ∧
    (sortCoeffs l).Pairwise (fun a b => leF a.et b.et = true) ∧
    ∀ e, (sortCoeffs l).filter (fun c => decide (c.et = e)) = l.filter (fun c => decide (c.et = e)) := by
  unfold sortCoeffs
  induction l with
  | nil => simp
  | cons x l ih =>
    rw [List.foldr_cons]
    refine ⟨(insertCoeff_perm x _).trans (ih.1.cons x), insertCoeff_sorted ih.2.1, ?_⟩
    intro e
    rw [insertCoeff_filter, List.filter_cons, List.filter_cons, ih.2.2 e]

theorem sclkKey_eq (i : Int) : sclkKey i = var "SCLK01_COEFFICIENTS_" i "" := by
  unfold sclkKey var
  show _ ++ idStr i = _ ++ (idStr i ++ [])
  rw [List.append_nil]

theorem leF_antisymm {a b : F64} (h1 : leF a b = true) (h2 : leF b a = true) : a = b := by
  cases a with
  | num x =>
    cases b with
    | num y =>
      simp only [leF, decide_eq_true_eq] at h1 h2
      rw [le_antisymm h1 h2]
    | inf n => cases n <;> simp [leF] at h1 h2
    | nan => simp [leF] at h1 h2
  | inf m =>
    cases b with
    | num y => cases m <;> simp [leF] at h1 h2
    | inf n => cases m <;> cases n <;> simp [leF] at h1 h2 ⊢
    | nan => cases m <;> simp [leF] at h1 h2
  | nan =>
    cases b with
    | num y => simp [leF] at h1 h2
    | inf n => cases n <;> simp [leF] at h1 h2
    | nan => rfl

/-- A table sorted by time is determined by the entries at each time. -/
theorem stable_unique : ∀ {l m : List Coeff}, l.Pairwise (fun a b => leF a.et b.et = true) →
    m.Pairwise (fun a b => leF a.et b.et = true) →
    (∀ e, l.filter (fun c => decide (c.et = e)) = m.filter (fun c => decide (c.et = e))) → l = m
  | [], [], _, _, _ => rfl
  | [], b :: m, _, _, h => by
    have := h b.et
    simp at this
  | a :: l, [], _, _, h => by
    have := h a.et
    simp at this
  | a :: l, b :: m, h1, h2, h => by
    rw [List.pairwise_cons] at h1 h2
    have mem : ∀ {x : Coeff}, x ∈ a :: l ↔ x ∈ b :: m := by
      intro x
      have e := h x.et
      have f : ∀ y : List Coeff, x ∈ y ↔ x ∈ y.filter (fun c => decide (c.et = x.et)) := by
        intro y
        rw [List.mem_filter]
        simp
      rw [f (a :: l), f (b :: m), e]
    have le1 : leF a.et b.et = true := by
      rcases List.mem_cons.mp (mem.mpr List.mem_cons_self) with e | e
      · rw [e]
        exact leF_refl _
      · exact h1.1 b e
    have le2 : leF b.et a.et = true := by
      rcases List.mem_cons.mp (mem.mp List.mem_cons_self) with e | e
      · rw [e]
        exact leF_refl _
      · exact h2.1 a e
    have het := leF_antisymm le1 le2
    have hab : a = b := by
      have := h a.et
      rw [List.filter_cons, List.filter_cons, if_pos (by simp), if_pos (by simp [het])] at this
      exact (List.cons.inj this).1
    subst hab
    rw [stable_unique h1.2 h2.2]
    intro e
    have := h e
    rw [List.filter_cons, List.filter_cons] at this
    split at this
    · exact (List.cons.inj this).2
    · exact this

/-- Reading a clock. -/
theorem readClock_ok {d : Data} {i : Int} {x : Clock} :
    readClock d i = .ok x ↔ x.scId = i ∧ DescribesClock (get d) x := by
  unfold readClock
  simp only [bind_ok, need_ok, sclkKey_eq, triples_ok]
  constructor
  · rintro ⟨v, hv, xs, hxs, cs, hcs, h⟩
    injection h with h
    subst h
    refine ⟨rfl, ?_⟩
    obtain ⟨f1, f2, f3⟩ := sortCoeffs_facts cs
    have hlen : xs.length = 3 * cs.length := by
      rw [hcs]
      clear * -
      induction cs with
      | nil => rfl
      | cons c cs ih =>
        rw [List.flatMap_cons, List.length_append, ih, List.length_cons]
        simp only [List.length_cons, List.length_nil]
        omega
    unfold valueAsArray at hxs
    cases v with
    | int i =>
      injection hxs with hxs
      rw [← hxs] at hlen
      simp at hlen
      omega
    | float y =>
      injection hxs with hxs
      rw [← hxs] at hlen
      simp at hlen
      omega
    | text t => cases hxs
    | array l =>
      simp only at hxs
      split at hxs
      · rename_i ys hy
        injection hxs with hxs
        subst hxs
        rw [flatInner_numbers] at hy
        subst hcs
        exact ⟨l, cs, hv, hy, f2, f3⟩
      · cases hxs
  · rintro ⟨rfl, l, cs, hv, hn, hs, hf⟩
    obtain ⟨f1, f2, f3⟩ := sortCoeffs_facts cs
    refine ⟨_, hv, _, ?_, cs, rfl, ?_⟩
    · unfold valueAsArray
      simp only
      rw [flatInner_numbers.mpr hn]
    · have : sortCoeffs cs = x.coefficients := stable_unique f2 hs (fun e => by rw [f3 e, hf e])
      rw [this]

theorem named_clock {d : Data} {i : Int} :
    i ∈ d.filterMap (fun kv => sclkIdOf kv.1) ↔ Named d "SCLK01_COEFFICIENTS_" "" i := by
  rw [List.mem_filterMap]
  unfold sclkIdOf Named
  constructor
  · rintro ⟨⟨k, v⟩, hm, h⟩
    simp only [Option.bind_eq_some_iff, stripPrefix_some] at h
    obtain ⟨r, h1, h3⟩ := h
    refine ⟨r, v, ?_, h3⟩
    rw [show ("" : String).toList = [] from rfl, List.append_nil, ← h1]
    exact hm
  · rintro ⟨t, v, hm, h⟩
    rw [show ("" : String).toList = [] from rfl, List.append_nil] at hm
    refine ⟨_, hm, ?_⟩
    simp only [Option.bind_eq_some_iff, stripPrefix_some]
    exact ⟨t, rfl, h⟩

/-- Clocks are read exactly so: one table for each identifier that is named, in increasing order, each saying
what its variable says. -/
theorem clocks_read {d : Data} {xs : List Clock} :
    clocksOf d = .ok xs ↔ (xs.map Clock.scId).Pairwise (· < ·) ∧
      (∀ i, i ∈ xs.map Clock.scId ↔ Named d "SCLK01_COEFFICIENTS_" "" i) ∧ ∀ x ∈ xs, DescribesClock (get d) x := by
  unfold clocksOf
  rw [all_read (idOf := Clock.scId) (P := DescribesClock (get d)) (fun i x => readClock_ok)]
  simp only [named_clock]

end Verif.Kernels
