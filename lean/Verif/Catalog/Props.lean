import Verif.Catalog.Search
import Verif.Text.Lines

/-!
# Star catalogue: reading tables
-/

namespace Verif.Catalog

open Verif.Text

/-! ## What a table says -/

/-- The cell of a named column: the first with that header, if there is one and it is not blank. -/
def Cell (table : List (Str × Str)) (name : String) : Option Str :=
  (table.find? fun p => p.1 == name.toList).bind fun p => if p.2 = [] then none else some p.2

/-- A number that must be there. -/
def Required (cell : String → Option Str) (name : String) (v : F64) : Prop :=
  ∃ s, cell name = some s ∧ parseFloat s = some v

/-- A number that may be left out. -/
def Optional (cell : String → Option Str) (name : String) (v : Option F64) : Prop :=
  (cell name = none ∧ v = none) ∨ ∃ s x, cell name = some s ∧ parseFloat s = some x ∧ v = some x

/-- What a row says. -/
structure Says (cell : String → Option Str) (r : Row) : Prop where
  id : ∃ s, cell "source_id" = some s ∧ parseUInt (2 ^ 64 - 1) s = some r.id
  ra : Required cell "ra" r.ra
  dec : Required cell "dec" r.dec
  epoch : Required cell "epoch" r.epoch
  pmRa : Optional cell "pmra" r.pmRa
  pmDec : Optional cell "pmdec" r.pmDec
  parallax : Optional cell "parallax" r.parallax
  radialVelocity : Optional cell "radial_velocity" r.radialVelocity
  g : Optional cell "g_mag" r.g
  bp : Optional cell "bp_mag" r.bp
  rp : Optional cell "rp_mag" r.rp
  quality : r.quality = true ↔ ∀ s, cell "quality" = some s → ∃ w ∈ ["1", "true", "ok"], s.map lower = w.toList

/-- What an error says: a required column with nothing in it, or a cell that is no number. -/
inductive Blames (cell : String → Option Str) (n : Nat) : Err → Prop
  | missing (c : String) : c ∈ ["source_id", "ra", "dec", "epoch"] → cell c = none → Blames cell n (.missing c n)
  | badId (s : Str) : cell "source_id" = some s → parseUInt (2 ^ 64 - 1) s = none →
      Blames cell n (.invalid "source_id" n s)
  | badNumber (c : String) (s : Str) : c ∈ ["ra", "dec", "epoch", "pmra", "pmdec", "parallax", "radial_velocity",
      "g_mag", "bp_mag", "rp_mag"] → cell c = some s → parseFloat s = none → Blames cell n (.invalid c n s)

/-! ## One row -/

theorem trim_is_tight (s : Str) : Tight (trim s) := by
  have hd : ∀ (l : Str) (c : Char), (l.dropWhile isWs).head? = some c → isWs c = false := by
    intro l c hc
    have := List.head?_dropWhile_not isWs l
    rw [hc] at this
    simpa using this
  unfold trim trimEnd trimStart
  constructor
  · intro c hc
    rw [List.head?_reverse] at hc
    by_cases h : (s.dropWhile isWs) = []
    · rw [h] at hc
      simp at hc
    · apply hd s c
      have h1 : ((s.dropWhile isWs).reverse.dropWhile isWs).reverse <+: s.dropWhile isWs := by
        have := List.dropWhile_suffix isWs (l := (s.dropWhile isWs).reverse)
        simpa using List.reverse_prefix.mpr this
      obtain ⟨t, ht⟩ := h1
      rw [← List.head?_reverse] at hc
      rw [← ht, List.head?_append, hc]
      rfl
  · intro c hc
    rw [List.getLast?_reverse] at hc
    exact hd _ c hc

/-- The cells of a row under a header. -/
theorem col_cell {hdr fields : List Str} (ht : ∀ s ∈ fields, trim s = s) (name : String) :
    col hdr fields name = Cell (hdr.zip fields) name := by
  unfold col Cell
  induction hdr generalizing fields with
  | nil => rfl
  | cons a hdr ih =>
    cases fields with
    | nil =>
      simp only [List.zip_nil_right, List.find?_nil, Option.bind_none]
      cases (a :: hdr).findIdx? (· == name.toList) <;> simp
    | cons f fields =>
      rw [List.findIdx?_cons, List.zip_cons_cons, List.find?_cons]
      cases ha : (a == name.toList) with
      | true =>
        simp [ht f (by simp)]
      | false =>
        have := ih (fields := fields) (fun s hs => ht s (by simp [hs]))
        simp only [Bool.false_eq_true, if_false]
        rw [← this]
        cases hdr.findIdx? (· == name.toList) <;> simp

theorem optF64_spec (hdr fields : List Str) (n : Nat) (c : String) {cell : String → Option Str}
    (hc : ∀ name, col hdr fields name = cell name) :
    (∀ v, optF64 hdr fields n c = .ok v ↔ Optional cell c v)
      ∧ (∀ e, optF64 hdr fields n c = .error e → ∃ s, e = .invalid c n s ∧ cell c = some s ∧ parseFloat s = none) := by
  unfold optF64 Optional
  rw [hc]
  cases h : cell c with
  | none => simp [eq_comm]
  | some s =>
    simp only
    cases hp : parseFloat s with
    | none => simp [hp, eq_comm]
    | some x => simp [hp, eq_comm]

theorem reqF64_spec (hdr fields : List Str) (n : Nat) (c : String) {cell : String → Option Str}
    (hc : ∀ name, col hdr fields name = cell name) :
    (∀ v, reqF64 hdr fields n c = .ok v ↔ Required cell c v)
      ∧ (∀ e, reqF64 hdr fields n c = .error e → (e = .missing c n ∧ cell c = none)
          ∨ ∃ s, e = .invalid c n s ∧ cell c = some s ∧ parseFloat s = none) := by
  unfold reqF64 optF64 Required
  rw [hc]
  cases h : cell c with
  | none => simp [bind, Except.bind, eq_comm]
  | some s =>
    simp only
    cases hp : parseFloat s with
    | none => simp [hp, bind, Except.bind, eq_comm]
    | some x => simp [hp, bind, Except.bind]

theorem sourceId_spec (hdr fields : List Str) (n : Nat) {cell : String → Option Str}
    (hc : ∀ name, col hdr fields name = cell name) :
    (∀ v, sourceId hdr fields n = .ok v ↔ ∃ s, cell "source_id" = some s ∧ parseUInt (2 ^ 64 - 1) s = some v)
      ∧ (∀ e, sourceId hdr fields n = .error e → (e = .missing "source_id" n ∧ cell "source_id" = none)
          ∨ ∃ s, e = .invalid "source_id" n s ∧ cell "source_id" = some s ∧ parseUInt (2 ^ 64 - 1) s = none) := by
  unfold sourceId
  rw [hc]
  cases h : cell "source_id" with
  | none => simp [eq_comm]
  | some s =>
    simp only
    generalize 2 ^ 64 - 1 = m
    cases hp : parseUInt m s with
    | none => simp [hp, eq_comm]
    | some x => simp [hp]

theorem quality_spec (hdr fields : List Str) {cell : String → Option Str}
    (hc : ∀ name, col hdr fields name = cell name) :
    qualityOf hdr fields = true ↔ ∀ s, cell "quality" = some s → ∃ w ∈ ["1", "true", "ok"], s.map lower = w.toList := by
  unfold qualityOf
  rw [hc]
  cases h : cell "quality" with
  | none => simp
  | some s => simp [or_assoc]

theorem except_bind_ok {ε α β : Type} {x : Except ε α} {f : α → Except ε β} {b : β} :
    (x >>= f) = .ok b ↔ ∃ a, x = .ok a ∧ f a = .ok b := by
  cases x with
  | error e => simp [bind, Except.bind]
  | ok a => simp [bind, Except.bind]

theorem except_bind_error {ε α β : Type} {x : Except ε α} {f : α → Except ε β} {e : ε} :
    (x >>= f) = .error e ↔ x = .error e ∨ ∃ a, x = .ok a ∧ f a = .error e := by
  cases x with
  | error e => simp [bind, Except.bind]
  | ok a => simp [bind, Except.bind]

/-- A row is read exactly as it says. -/
theorem row_iff (hdr fields : List Str) (n : Nat) {cell : String → Option Str}
    (hc : ∀ name, col hdr fields name = cell name) (r : Row) : row hdr fields n = .ok r ↔ Says cell r := by
  unfold row
  simp only [except_bind_ok, (sourceId_spec hdr fields n hc).1, (reqF64_spec hdr fields n _ hc).1,
    (optF64_spec hdr fields n _ hc).1, pure, Except.pure]
  constructor
  · rintro ⟨id, h1, ra, h2, dec, h3, ep, h4, pa, h5, pd, h6, px, h7, rv, h8, g, h9, bp, h10, rp, h11, h⟩
    injection h with h
    subst h
    exact ⟨h1, h2, h3, h4, h5, h6, h7, h8, h9, h10, h11, quality_spec hdr fields hc⟩
  · rintro ⟨h1, h2, h3, h4, h5, h6, h7, h8, h9, h10, h11, h12⟩
    refine ⟨r.id, h1, r.ra, h2, r.dec, h3, r.epoch, h4, r.pmRa, h5, r.pmDec, h6, r.parallax, h7, r.radialVelocity, h8,
      r.g, h9, r.bp, h10, r.rp, h11, ?_⟩
    have : qualityOf hdr fields = r.quality := by
      have := (quality_spec hdr fields hc).trans h12.symm
      cases hq : qualityOf hdr fields <;> cases hr : r.quality <;> simp_all
    rw [this]

/-- A refused row is blamed on a cell that deserves it, with the number of its line. -/
theorem row_error (hdr fields : List Str) (n : Nat) {cell : String → Option Str}
    (hc : ∀ name, col hdr fields name = cell name) {e : Err} (h : row hdr fields n = .error e) : Blames cell n e := by
  have hreq : ∀ c, c ∈ ["ra", "dec", "epoch"] → ∀ e, reqF64 hdr fields n c = .error e → Blames cell n e := by
    intro c hcm e he
    rcases (reqF64_spec hdr fields n c hc).2 e he with ⟨rfl, h⟩ | ⟨s, rfl, h1, h2⟩
    · exact .missing c (by simp at hcm ⊢; tauto) h
    · exact .badNumber c s (by simp at hcm ⊢; tauto) h1 h2
  have hopt : ∀ c, c ∈ ["pmra", "pmdec", "parallax", "radial_velocity", "g_mag", "bp_mag", "rp_mag"] →
      ∀ e, optF64 hdr fields n c = .error e → Blames cell n e := by
    intro c hcm e he
    obtain ⟨s, rfl, h1, h2⟩ := (optF64_spec hdr fields n c hc).2 e he
    exact .badNumber c s (by simp at hcm ⊢; tauto) h1 h2
  unfold row at h
  rw [except_bind_error] at h
  rcases h with h | ⟨_, _, h⟩
  · rcases (sourceId_spec hdr fields n hc).2 e h with ⟨rfl, h'⟩ | ⟨s, rfl, h1, h2⟩
    · exact .missing _ (by simp) h'
    · exact .badId s h1 h2
  rw [except_bind_error] at h
  rcases h with h | ⟨_, _, h⟩
  · exact hreq _ (by simp) e h
  rw [except_bind_error] at h
  rcases h with h | ⟨_, _, h⟩
  · exact hreq _ (by simp) e h
  rw [except_bind_error] at h
  rcases h with h | ⟨_, _, h⟩
  · exact hreq _ (by simp) e h
  rw [except_bind_error] at h
  rcases h with h | ⟨_, _, h⟩
  · exact hopt _ (by simp) e h
  rw [except_bind_error] at h
  rcases h with h | ⟨_, _, h⟩
  · exact hopt _ (by simp) e h
  rw [except_bind_error] at h
  rcases h with h | ⟨_, _, h⟩
  · exact hopt _ (by simp) e h
  rw [except_bind_error] at h
  rcases h with h | ⟨_, _, h⟩
  · exact hopt _ (by simp) e h
  rw [except_bind_error] at h
  rcases h with h | ⟨_, _, h⟩
  · exact hopt _ (by simp) e h
  rw [except_bind_error] at h
  rcases h with h | ⟨_, _, h⟩
  · exact hopt _ (by simp) e h
  rw [except_bind_error] at h
  rcases h with h | ⟨_, _, h⟩
  · exact hopt _ (by simp) e h
  cases h

/-! ## Whole tables -/

/-- The lines of a text that count, with their numbers: not blank and not comments. -/
def Content (input : Str) : List (Nat × Str) :=
  (((lines input).zipIdx 1).map fun p => (p.2, trim p.1)).filter fun p => p.2 ≠ [] ∧ p.2.head? ≠ some '#'

/-- The cells of a line. -/
def Cells (line : Str) : List Str := (splitChar ',' line).map trim

/-- What a line under a header says. -/
def Under (header line : Str) : String → Option Str :=
  Cell (((Cells header).map (·.map lower)).zip (Cells line))

theorem under_col (header line : Str) (name : String) :
    col ((Cells header).map (·.map lower)) (Cells line) name = Under header line name := by
  apply col_cell
  intro s hs
  obtain ⟨t, -, rfl⟩ := List.mem_map.mp hs
  exact trim_tight (trim_is_tight t)

/-- The loop over content lines only. -/
def body (h : List Str) : List (Nat × Str) → Except Err (List Row)
  | [] => .ok []
  | (n, l) :: rest => do
    let r ← row h (Cells l) n
    let t ← body h rest
    return r :: t

def contentFrom (n : Nat) (ls : List Str) : List (Nat × Str) :=
  ((ls.zipIdx n).map fun p => (p.2, trim p.1)).filter fun p => p.2 ≠ [] ∧ p.2.head? ≠ some '#'

theorem contentFrom_cons (n : Nat) (raw : Str) (ls : List Str) :
    contentFrom n (raw :: ls) = if (trim raw).isEmpty || (trim raw).head? == some '#' then contentFrom (n + 1) ls
      else (n, trim raw) :: contentFrom (n + 1) ls := by
  unfold contentFrom
  rw [List.zipIdx_cons, List.map_cons, List.filter_cons]
  by_cases h1 : trim raw = []
  · simp [h1]
  · by_cases h2 : (trim raw).head? = some '#'
    · simp [h2]
    · simp [h1, h2]

theorem rows_some (h : List Str) (n : Nat) (ls : List Str) : rows n (some h) ls = body h (contentFrom n ls) := by
  induction ls generalizing n with
  | nil => rfl
  | cons raw ls ih =>
    rw [contentFrom_cons, rows]
    split
    · exact ih _
    · rw [body, ih]
      rfl

theorem rows_none (n : Nat) (ls : List Str) : rows n none ls = match contentFrom n ls with
    | [] => .ok []
    | (_, l) :: rest => body ((Cells l).map (·.map lower)) rest := by
  induction ls generalizing n with
  | nil => rfl
  | cons raw ls ih =>
    rw [contentFrom_cons, rows]
    split
    · exact ih _
    · rw [rows_some]
      rfl

theorem body_ok (h : List Str) (header : Str) (hh : h = (Cells header).map (·.map lower)) (c : List (Nat × Str)) (rs : List Row) :
    body h c = .ok rs ↔ List.Forall₂ (fun p r => Says (Under header p.2) r) c rs := by
  subst hh
  induction c generalizing rs with
  | nil =>
    rw [body, List.forall₂_nil_left_iff]
    constructor
    · intro h; injection h with h; exact h.symm
    · rintro rfl; rfl
  | cons p c ih =>
    obtain ⟨n, l⟩ := p
    rw [body]
    simp only [except_bind_ok, row_iff _ _ _ (under_col header l), ih, pure, Except.pure]
    constructor
    · rintro ⟨r, h1, t, h2, h3⟩
      injection h3 with h3
      subst h3
      exact .cons h1 h2
    · intro h
      cases h with
      | cons h1 h2 => exact ⟨_, h1, _, h2, rfl⟩

/-- A table is read exactly: the first line that counts is the header, and the others are the rows, in order. -/
theorem parse_iff (input : Str) (rs : List Row) : parse input = .ok rs ↔
    match Content input with
    | [] => rs = []
    | header :: rest => List.Forall₂ (fun p r => Says (Under header.2 p.2) r) rest rs := by
  unfold parse
  rw [rows_none]
  show _ ↔ match contentFrom 1 (lines input) with
    | [] => rs = []
    | header :: rest => List.Forall₂ (fun p r => Says (Under header.2 p.2) r) rest rs
  cases contentFrom 1 (lines input) with
  | nil =>
    constructor
    · intro h; injection h with h; exact h.symm
    · rintro rfl; rfl
  | cons p c => exact body_ok _ _ rfl c rs

theorem body_error (h : List Str) (header : Str) (hh : h = (Cells header).map (·.map lower)) (c : List (Nat × Str)) (e : Err)
    (he : body h c = .error e) : ∃ before p after, c = before ++ p :: after ∧ (∀ q ∈ before, ∃ r, Says (Under header q.2) r)
      ∧ (¬ ∃ r, Says (Under header p.2) r) ∧ Blames (Under header p.2) p.1 e := by
  subst hh
  induction c with
  | nil => cases he
  | cons p c ih =>
    obtain ⟨n, l⟩ := p
    rw [body, except_bind_error] at he
    rcases he with he | ⟨r, hr, he⟩
    · refine ⟨[], (n, l), c, rfl, by simp, ?_, row_error _ _ _ (under_col header l) he⟩
      rintro ⟨r, hr⟩
      rw [(row_iff _ _ n (under_col header l) r).mpr hr] at he
      cases he
    · rw [except_bind_error] at he
      rcases he with he | ⟨_, _, he⟩
      · obtain ⟨b, p, a, h1, h2, h3, h4⟩ := ih he
        refine ⟨(n, l) :: b, p, a, by rw [h1]; rfl, ?_, h3, h4⟩
        intro q hq
        rcases List.mem_cons.mp hq with rfl | hq
        · exact ⟨r, (row_iff _ _ n (under_col header l) r).mp hr⟩
        · exact h2 q hq
      · cases he

/-- A refused table is refused for its first unreadable row, whose line number, column and text are given. -/
theorem parse_error (input : Str) (e : Err) (he : parse input = .error e) : ∃ header before p after,
    Content input = header :: (before ++ p :: after) ∧ (∀ q ∈ before, ∃ r, Says (Under header.2 q.2) r)
      ∧ (¬ ∃ r, Says (Under header.2 p.2) r) ∧ Blames (Under header.2 p.2) p.1 e := by
  unfold parse at he
  rw [rows_none] at he
  change (match Content input with
    | [] => (.ok [] : Except Err (List Row))
    | (_, l) :: rest => body ((Cells l).map (fun (s : Str) => s.map lower)) rest) = _ at he
  cases hc : Content input with
  | nil => rw [hc] at he; cases he
  | cons p c =>
    rw [hc] at he
    obtain ⟨b, q, a, h1, h2, h3, h4⟩ := body_error _ p.2 rfl c e he
    exact ⟨p, b, q, a, by rw [h1], h2, h3, h4⟩

/-- The numbers in the errors are those of the lines. -/
theorem content_line {input : Str} {p : Nat × Str} (h : p ∈ Content input) :
    ∃ raw, 1 ≤ p.1 ∧ (lines input)[p.1 - 1]? = some raw ∧ p.2 = trim raw := by
  unfold Content at h
  rw [List.mem_filter] at h
  obtain ⟨q, hq, rfl⟩ := List.mem_map.mp h.1
  obtain ⟨a, i⟩ := q
  rw [List.mem_zipIdx_iff_le_and_getElem?_sub] at hq
  exact ⟨a, hq.1, hq.2, rfl⟩

/-- Comments, blank lines and blanks around lines change nothing. -/
theorem comments_ignored {a b : Str} (h : (Content a).map (·.2) = (Content b).map (·.2)) (rs : List Row) :
    parse a = .ok rs ↔ parse b = .ok rs := by
  rw [parse_iff, parse_iff]
  cases ha : Content a with
  | nil =>
    cases hb : Content b with
    | nil => rfl
    | cons p c => rw [ha, hb] at h; cases h
  | cons p c =>
    cases hb : Content b with
    | nil => rw [ha, hb] at h; cases h
    | cons q d =>
      rw [ha, hb] at h
      simp only [List.map_cons, List.cons.injEq] at h
      obtain ⟨h1, h2⟩ := h
      dsimp only
      rw [h1, ← List.forall₂_map_left_iff (f := Prod.snd) (R := fun l r => Says (Under q.2 l) r) (l := c),
        ← List.forall₂_map_left_iff (f := Prod.snd) (R := fun l r => Says (Under q.2 l) r) (l := d), h2]

/-! ## Order of columns -/

/-- The order of the columns does not matter when no name is used twice. -/
theorem columns_any_order {s t : List (Str × Str)} (hp : s.Perm t) (hn : (s.map (·.1)).Nodup) (name : String) :
    Cell s name = Cell t name := by
  unfold Cell
  congr 1
  have key : ∀ (u : List (Str × Str)), (u.map (·.1)).Nodup → ∀ p, u.find? (fun p => p.1 == name.toList) = some p ↔
      p ∈ u ∧ p.1 = name.toList := by
    intro u hu p
    induction u with
    | nil => simp
    | cons q u ih =>
      rw [List.map_cons, List.nodup_cons] at hu
      rw [List.find?_cons]
      by_cases hq : q.1 = name.toList
      · rw [beq_iff_eq.mpr hq]
        constructor
        · rintro h; injection h with h; subst h; exact ⟨by simp, hq⟩
        · rintro ⟨h, h2⟩
          rcases List.mem_cons.mp h with rfl | h
          · rfl
          · exact absurd (List.mem_map.mpr ⟨p, h, h2.trans hq.symm⟩) hu.1
      · rw [beq_eq_false_iff_ne.mpr hq]
        dsimp only
        rw [ih hu.2]
        constructor
        · rintro ⟨h, h2⟩; exact ⟨by simp [h], h2⟩
        · rintro ⟨h, h2⟩
          rcases List.mem_cons.mp h with rfl | h
          · exact absurd h2 hq
          · exact ⟨h, h2⟩
  ext p
  rw [key s hn, key t ((hp.map (·.1)).nodup_iff.mp hn), hp.mem_iff]

/-- Columns with other names are ignored. -/
theorem other_columns {s : List (Str × Str)} {name : String} (keep : Str × Str → Bool)
    (hk : ∀ p ∈ s, p.1 = name.toList → keep p = true) : Cell (s.filter keep) name = Cell s name := by
  unfold Cell
  congr 1
  induction s with
  | nil => rfl
  | cons p s ih =>
    have ih := ih fun q hq => hk q (by simp [hq])
    rw [List.filter_cons, List.find?_cons]
    by_cases h : p.1 = name.toList
    · rw [if_pos (hk p (by simp) h), List.find?_cons, beq_iff_eq.mpr h]
    · rw [beq_eq_false_iff_ne.mpr h]
      split
      · rw [List.find?_cons, beq_eq_false_iff_ne.mpr h]
        exact ih
      · exact ih

/-! ## Written tables -/

/-- Text a writer can put in a cell. -/
def Clean (s : Str) : Prop := ∀ c ∈ s, isWs c = false ∧ c ≠ ',' ∧ c ≠ '#'

def joined (cells : List Str) : Str := List.intercalate [','] cells

theorem joined_cons (s t : Str) (ss : List Str) : joined (s :: t :: ss) = s ++ ',' :: joined (t :: ss) := by
  simp [joined, List.intercalate]

theorem joined_single (s : Str) : joined [s] = s := by simp [joined, List.intercalate]

theorem joined_split {cells : List Str} (hne : cells ≠ []) (h : ∀ s ∈ cells, Clean s) : Cells (joined cells) = cells := by
  unfold Cells
  induction cells with
  | nil => exact absurd rfl hne
  | cons s ss ih =>
    have hs := h s (by simp)
    have hc : ',' ∉ s := fun hm => (hs _ hm).2.1 rfl
    have ht : trim s = s := trim_tight (tight_of_all fun c hc => (hs c hc).1)
    cases ss with
    | nil => rw [joined_single, splitChar_single hc, List.map_singleton, ht]
    | cons t ss =>
      rw [joined_cons, splitChar_append hc, List.map_cons, ht, ih (by simp) fun u hu => h u (by simp [hu])]

theorem joined_chars {cells : List Str} (h : ∀ s ∈ cells, Clean s) : ∀ c ∈ joined cells, isWs c = false ∧ c ≠ '#' := by
  induction cells with
  | nil => simp [joined, List.intercalate]
  | cons s ss ih =>
    have hs := h s (by simp)
    cases ss with
    | nil => rw [joined_single]; exact fun c hc => ⟨(hs c hc).1, (hs c hc).2.2⟩
    | cons t ss =>
      rw [joined_cons]
      intro c hc
      rcases List.mem_append.mp hc with hc | hc
      · exact ⟨(hs c hc).1, (hs c hc).2.2⟩
      · rcases List.mem_cons.mp hc with rfl | hc
        · decide
        · exact ih (fun u hu => h u (by simp [hu])) c hc

/-- A table with this header and these rows. -/
def Written (header : List Str) (table : List (List Str)) : Str := unlines (joined header :: table.map joined)

theorem content_written {header : List Str} {table : List (List Str)} (h : ∀ cells ∈ header :: table,
    2 ≤ cells.length ∧ ∀ s ∈ cells, Clean s) :
    (Content (Written header table)).map (·.2) = joined header :: table.map joined := by
  have hok : ∀ l ∈ (header :: table).map joined, (∀ c ∈ l, isWs c = false ∧ c ≠ '#') ∧ l ≠ [] := by
    intro l hl
    obtain ⟨cells, hc, rfl⟩ := List.mem_map.mp hl
    refine ⟨joined_chars (h cells hc).2, ?_⟩
    match cells, (h cells hc).1 with
    | s :: t :: ss, _ => rw [joined_cons]; simp
  show (contentFrom 1 (lines (unlines ((header :: table).map joined)))).map (·.2) = (header :: table).map joined
  rw [lines_unlines]
  · generalize (header :: table).map joined = ls at hok
    generalize 1 = n
    induction ls generalizing n with
    | nil => rfl
    | cons l ls ih =>
      obtain ⟨h1, h2⟩ := hok l (by simp)
      have ht : trim l = l := trim_tight (tight_of_all fun c hc => (h1 c hc).1)
      rw [contentFrom_cons, ht, if_neg]
      · rw [List.map_cons, ih fun m hm => hok m (by simp [hm])]
      · cases l with
        | nil => exact absurd rfl h2
        | cons c l => simpa using (h1 c (by simp)).2
  · intro l hl
    obtain ⟨h1, -⟩ := hok l hl
    refine ⟨fun hm => ?_, fun hm => ?_⟩
    · exact absurd (h1 _ hm).1 (by decide)
    · exact absurd (h1 _ (List.mem_of_getLast? hm)).1 (by decide)

theorem forall₂_mem {α β γ : Type} {f : α → γ} {g : α → γ} {R : γ → β → Prop} {l : List α} (h : ∀ a ∈ l, f a = g a)
    (rs : List β) : List.Forall₂ (fun a r => R (f a) r) l rs ↔ List.Forall₂ (fun a r => R (g a) r) l rs := by
  induction l generalizing rs with
  | nil => simp [List.forall₂_nil_left_iff]
  | cons a l ih =>
    rw [List.forall₂_cons_left_iff, List.forall₂_cons_left_iff]
    simp only [h a (by simp), ih fun b hb => h b (by simp [hb])]

/-- A table written cell by cell is read cell by cell. -/
theorem written_iff {header : List Str} {table : List (List Str)} (h : ∀ cells ∈ header :: table,
    2 ≤ cells.length ∧ ∀ s ∈ cells, Clean s) (rs : List Row) : parse (Written header table) = .ok rs ↔
      List.Forall₂ (fun cells r => Says (Cell ((header.map (·.map lower)).zip cells)) r) table rs := by
  have hc := content_written h
  rw [parse_iff]
  cases hw : Content (Written header table) with
  | nil => rw [hw] at hc; cases hc
  | cons p c =>
    rw [hw, List.map_cons] at hc
    injection hc with h1 h2
    dsimp only
    rw [h1, ← List.forall₂_map_left_iff (f := Prod.snd) (R := fun l r => Says (Under (joined header) l) r) (l := c), h2,
      List.forall₂_map_left_iff]
    have hh : Cells (joined header) = header := by
      have := h header (by simp)
      exact joined_split (by rintro rfl; simp at this) this.2
    have hcell : ∀ cells ∈ table, Under (joined header) (joined cells) = Cell ((header.map (·.map lower)).zip cells) := by
      intro cells hm
      have := h cells (by simp [hm])
      unfold Under
      rw [hh, joined_split (by rintro rfl; simp at this) this.2]
    exact forall₂_mem hcell rs

/-! Examples. -/

def exampleTable : Str := unlines (["# stars", "Source_ID, RA ,Dec,epoch,Quality,g_mag,note", "", "17, 10.5,-20,2016.0,OK,,x",
  "18,350,5.25,2016,no,12.5,"].map String.toList)

example : parse exampleTable = .ok [
    ⟨17, .num (21 / 2), .num (-20), .num 2016, none, none, none, none, none, none, none, true⟩,
    ⟨18, .num 350, .num (21 / 4), .num 2016, none, none, none, none, some (.num (25 / 2)), none, none, false⟩] := by
  decide +kernel

example : parse (unlines (["source_id,ra,dec,epoch", "# c", "1,2,3,2016", "2,x,3,2016"].map String.toList)) =
    .error (.invalid "ra" 4 "x".toList) := by decide +kernel

example : parse (unlines (["source_id,ra,dec", "1,2,3"].map String.toList)) = .error (.missing "epoch" 2) := by decide +kernel

example : 2 ≤ (["source_id".toList, "ra".toList] : List Str).length ∧ ∀ s ∈ (["source_id".toList, "ra".toList] : List Str), Clean s := by
  unfold Clean; decide +kernel

/-- A table without a header loses its first star without a word. -/
theorem headerless_loses : ∃ t : Str, parse t = .ok [] ∧ ∃ p, Content t = [p] := by
  refine ⟨"1,2,3,2016\n".toList, by decide +kernel, _, rfl⟩

/-- Coordinates that are no numbers are accepted. -/
theorem nan_accepted : ∃ r, parse "source_id,ra,dec,epoch\n1,nan,inf,2016\n".toList = .ok [r] ∧ r.ra = .nan ∧ r.dec = .inf false := by
  exact ⟨⟨1, .nan, .inf false, .num 2016, none, none, none, none, none, none, none, true⟩, by decide +kernel, rfl, rfl⟩

end Verif.Catalog
