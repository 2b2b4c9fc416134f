import Verif.Igs.Orbex

/-
Reading SINEX: the stations are those with three coordinates, and every value is the last one of its type for the code.
-/
namespace Verif.Igs.Props
open Verif.Text Verif.Igs
open Verif.Calendar (Valid dayNumber)
open Verif.Naming (ordinal)

/-! ### Specification -/

/-- The lines before the end of the file. -/
def snxBody (ls : List Str) : List Str := ls.takeWhile (fun l => ¬ "%ENDSNX".toList <+: l)

/-- Whether a line opens the block of the estimates, or another, or closes one. -/
def opens (l : Str) : Option Bool :=
  if "+".toList <+: l then some (decide (trim (l.drop 1) = "SOLUTION/ESTIMATE".toList)) else if "-".toList <+: l then some false else none

def agencyOf (l : Str) : Option Str := if "%=SNX".toList <+: l then (words l)[2]? else none

/-- A line of the block of the estimates that is neither a comment nor a control line. -/
def IsEstimate (p : List Str × Str) : Prop :=
  lastSaid opens false p.1 = true ∧ ¬ "*".toList <+: p.2 ∧ ¬ "%".toList <+: p.2 ∧ ¬ "+".toList <+: p.2 ∧ ¬ "-".toList <+: p.2

instance (p : List Str × Str) : Decidable (IsEstimate p) := by unfold IsEstimate; infer_instance

/-- Nine fields, and the ninth a number. -/
def Complete (l : Str) : Prop := ((words l)[8]?.bind parseFloat).isSome = true

instance (l : Str) : Decidable (Complete l) := by unfold Complete; infer_instance

structure Est where
  typ : Str
  code : Str
  pt : Str
  soln : Str
  epoch : F64
  value : F64
deriving DecidableEq

def fld (l : Str) (i : Nat) : Str := (words l)[i]?.getD []

/-- The estimate of a line. -/
def estAt (yo : Yo) (p : List Str × Str) : Option Est :=
  if IsEstimate p ∧ Complete p.2 then
    some ⟨fld p.2 1, fld p.2 2, fld p.2 3, fld p.2 4, (sinexEpoch yo (fld p.2 5)).getD .nan, num p.2 8⟩
  else none

/-- A line strict mode refuses. -/
def Refused (mode : ParseMode) (p : List Str × Str) : Prop := mode = .strict ∧ IsEstimate p ∧ ¬ Complete p.2

/-- A line whose year leaves the range of the integers. -/
def Overflows (yo : Yo) (p : List Str × Str) : Prop := IsEstimate p ∧ Complete p.2 ∧ sinexEpoch yo (fld p.2 5) = none

/-- The last estimate of a type for a code. -/
def lastValue (es : List Est) (code : Str) (typ : String) : Option F64 :=
  (es.reverse.find? (fun e => decide (e.code = code ∧ e.typ = typ.toList))).map (·.value)

/-- The last estimate for a code. -/
def lastEst (es : List Est) (code : Str) : Option Est := es.reverse.find? (fun e => decide (e.code = code))

/-- The station the estimates give for a code: three coordinates are needed, velocities are given only all three, and the solution is
that of the last estimate. -/
def Stands (es : List Est) (st : Station) : Prop :=
  lastValue es st.code "STAX" = some st.pos.1 ∧ lastValue es st.code "STAY" = some st.pos.2.1 ∧ lastValue es st.code "STAZ" = some st.pos.2.2 ∧
  (∃ e, lastEst es st.code = some e ∧ st.pt = e.pt ∧ st.soln = e.soln ∧ st.epoch = e.epoch) ∧
  (∀ v, st.vel = some v ↔ lastValue es st.code "VELX" = some v.1 ∧ lastValue es st.code "VELY" = some v.2.1 ∧ lastValue es st.code "VELZ" = some v.2.2)

/-! ### The table of the rows -/

def look (rows : List (Str × Row)) (code : Str) : Option Row := (rows.find? (fun p => decide (p.1 = code))).map Prod.snd

theorem look_upsert (f : Row → Row) (c code : Str) (rows : List (Str × Row)) :
    look (upsert f c rows) code = if code = c then some (f ((look rows c).getD newRow)) else look rows code := by
  induction rows with
  | nil =>
    unfold look upsert
    by_cases h : c = code
    · simp [h]
    · simp [h, Ne.symm h]
  | cons p rows ih =>
    obtain ⟨k, r⟩ := p
    unfold look at ih ⊢
    unfold upsert
    by_cases h : k = c
    · subst h
      by_cases h2 : k = code
      · simp [h2]
      · simp [h2, Ne.symm h2]
    · rw [if_neg h]
      by_cases h2 : k = code
      · subst h2
        simp [h]
      · simp only [List.find?_cons, decide_eq_false h2, decide_eq_false h]
        exact ih

theorem keys_upsert (f : Row → Row) (c : Str) (rows : List (Str × Row)) (h : (rows.map Prod.fst).Nodup) :
    ((upsert f c rows).map Prod.fst).Nodup ∧ ∀ k, k ∈ (upsert f c rows).map Prod.fst ↔ k = c ∨ k ∈ rows.map Prod.fst := by
  induction rows with
  | nil => simp [upsert]
  | cons p rows ih =>
    obtain ⟨k, r⟩ := p
    rw [List.map_cons, List.nodup_cons] at h
    obtain ⟨i1, i2⟩ := ih h.2
    unfold upsert
    by_cases hk : k = c
    · rw [if_pos hk]
      subst hk
      simp only [List.map_cons, List.nodup_cons, List.mem_cons]
      exact ⟨h, fun a => by tauto⟩
    · rw [if_neg hk]
      simp only [List.map_cons, List.nodup_cons, List.mem_cons, i2]
      refine ⟨⟨fun hh => ?_, i1⟩, fun a => by tauto⟩
      rcases hh with hh | hh
      · exact hk hh
      · exact h.1 hh

def addEst (rows : List (Str × Row)) (e : Est) : List (Str × Row) := upsert (setRow e.typ e.pt e.soln e.epoch e.value) e.code rows

theorem lastValue_snoc (es : List Est) (e : Est) (code : Str) (typ : String) :
    lastValue (es ++ [e]) code typ = if e.code = code ∧ e.typ = typ.toList then some e.value else lastValue es code typ := by
  unfold lastValue
  rw [List.reverse_append, List.reverse_singleton, List.singleton_append, List.find?_cons]
  by_cases h : e.code = code ∧ e.typ = typ.toList
  · rw [if_pos h, decide_eq_true h]; rfl
  · rw [if_neg h, decide_eq_false h]

theorem lastEst_snoc (es : List Est) (e : Est) (code : Str) : lastEst (es ++ [e]) code = if e.code = code then some e else lastEst es code := by
  unfold lastEst
  rw [List.reverse_append, List.reverse_singleton, List.singleton_append, List.find?_cons]
  by_cases h : e.code = code
  · rw [if_pos h, decide_eq_true h]
  · rw [if_neg h, decide_eq_false h]

/-- What a row holds. -/
def rowOf (es : List Est) (code : Str) (e : Est) : Row :=
  ⟨lastValue es code "STAX", lastValue es code "STAY", lastValue es code "STAZ", lastValue es code "VELX", lastValue es code "VELY", lastValue es code "VELZ",
    e.epoch, e.pt, e.soln⟩

theorem none_before {es : List Est} {code : Str} (h : lastEst es code = none) (typ : String) : lastValue es code typ = none := by
  unfold lastEst at h
  unfold lastValue
  rw [List.find?_eq_none] at h
  rw [Option.map_eq_none_iff, List.find?_eq_none]
  intro x hx
  have := h x hx
  simp only [decide_eq_true_eq] at this ⊢
  exact fun hh => this hh.1

theorem set_row (es : List Est) (e : Est) (r : Row) (hr : (r.x, r.y, r.z, r.vx, r.vy, r.vz) =
      (lastValue es e.code "STAX", lastValue es e.code "STAY", lastValue es e.code "STAZ", lastValue es e.code "VELX", lastValue es e.code "VELY", lastValue es e.code "VELZ")) :
    setRow e.typ e.pt e.soln e.epoch e.value r = rowOf (es ++ [e]) e.code e := by
  simp only [Prod.mk.injEq] at hr
  obtain ⟨h1, h2, h3, h4, h5, h6⟩ := hr
  unfold setRow rowOf
  simp only [lastValue_snoc, true_and]
  by_cases t1 : e.typ = "STAX".toList
  · simp [t1, h1, h2, h3, h4, h5, h6]
  · by_cases t2 : e.typ = "STAY".toList
    · simp [t2, h1, h2, h3, h4, h5, h6]
    · by_cases t3 : e.typ = "STAZ".toList
      · simp [t3, h1, h2, h3, h4, h5, h6]
      · by_cases t4 : e.typ = "VELX".toList
        · simp [t4, h1, h2, h3, h4, h5, h6]
        · by_cases t5 : e.typ = "VELY".toList
          · simp [t5, h1, h2, h3, h4, h5, h6]
          · by_cases t6 : e.typ = "VELZ".toList
            · simp [t6, h1, h2, h3, h4, h5, h6]
            · simp only [t1, t2, t3, t4, t5, t6, if_false, h1, h2, h3, h4, h5, h6]

theorem rows_hold (es : List Est) : ((es.foldl addEst []).map Prod.fst).Nodup ∧ ∀ code, look (es.foldl addEst []) code = (lastEst es code).map (rowOf es code) := by
  induction es using List.reverseRecOn with
  | nil => exact ⟨by simp, fun code => rfl⟩
  | append_singleton es e ih =>
    rw [List.foldl_append, List.foldl_cons, List.foldl_nil]
    refine ⟨(keys_upsert _ _ _ ih.1).1, fun code => ?_⟩
    have hu : look (addEst (es.foldl addEst []) e) code = look (upsert (setRow e.typ e.pt e.soln e.epoch e.value) e.code (es.foldl addEst [])) code := rfl
    rw [hu, look_upsert, lastEst_snoc]
    by_cases h : code = e.code
    · subst h
      rw [if_pos rfl, if_pos rfl, ih.2]
      simp only [Option.map_some, Option.some.injEq]
      apply set_row
      rcases hl : lastEst es e.code with _ | e'
      · simp [none_before hl, newRow]
      · rfl
    · rw [if_neg h, if_neg (Ne.symm h), ih.2]
      rcases lastEst es code with _ | e'
      · rfl
      · simp only [Option.map_some, Option.some.injEq]
        unfold rowOf
        simp only [lastValue_snoc, Ne.symm h, false_and, if_false]

theorem look_mem {rows : List (Str × Row)} (h : (rows.map Prod.fst).Nodup) {code : Str} {r : Row} : look rows code = some r ↔ (code, r) ∈ rows := by
  unfold look
  induction rows with
  | nil => simp
  | cons p rows ih =>
    rw [List.map_cons, List.nodup_cons] at h
    rw [List.find?_cons]
    by_cases hk : p.1 = code
    · rw [decide_eq_true hk]
      simp only [Option.map_some, Option.some.injEq, List.mem_cons]
      constructor
      · intro hr; left; rw [← hk, ← hr]
      · rintro (hr | hr)
        · rw [← hr]
        · exact absurd (List.mem_map.mpr ⟨_, hr, hk.symm⟩) h.1
    · rw [decide_eq_false hk, ih h.2, List.mem_cons]
      constructor
      · exact Or.inr
      · rintro (hr | hr)
        · exact absurd (by rw [← hr]) hk
        · exact hr

theorem three_some {a b c : Option F64} {v : F64 × F64 × F64} : three a b c = some v ↔ a = some v.1 ∧ b = some v.2.1 ∧ c = some v.2.2 := by
  obtain ⟨x, y, z⟩ := v
  unfold three
  rcases a with _ | a <;> rcases b with _ | b <;> rcases c with _ | c <;> simp

theorem station_stands (es : List Est) (st : Station) : (∃ p ∈ es.foldl addEst [], station p = some st) ↔ Stands es st := by
  obtain ⟨hn, hl⟩ := rows_hold es
  constructor
  · rintro ⟨⟨code, r⟩, hp, hs⟩
    have h1 := (look_mem hn).mpr hp
    rw [hl] at h1
    rcases he : lastEst es code with _ | e
    · rw [he] at h1; simp at h1
    · rw [he] at h1
      simp only [Option.map_some, Option.some.injEq] at h1
      subst h1
      unfold station rowOf at hs
      simp only [Option.map_eq_some_iff] at hs
      obtain ⟨pos, h2, h3⟩ := hs
      subst h3
      obtain ⟨a, b, c⟩ := three_some.mp h2
      exact ⟨a, b, c, ⟨e, he, rfl, rfl, rfl⟩, fun v => three_some⟩
  · rintro ⟨h1, h2, h3, ⟨e, he, h4, h5, h6⟩, h7⟩
    refine ⟨(st.code, rowOf es st.code e), (look_mem hn).mp (by rw [hl, he]; rfl), ?_⟩
    unfold station rowOf
    simp only
    rw [three_some.mpr ⟨h1, h2, h3⟩]
    obtain ⟨code, pt, soln, ep, pos, vel⟩ := st
    dsimp only at *
    simp only [Option.map_some, Option.some.injEq, Station.mk.injEq, true_and]
    refine ⟨h4.symm, h5.symm, h6.symm, ?_⟩
    cases vel with
    | some v => exact three_some.mpr ((h7 v).mp rfl)
    | none =>
      by_contra hne
      obtain ⟨v, hv⟩ := Option.ne_none_iff_exists'.mp hne
      exact absurd ((h7 v).mpr (three_some.mp hv)) (by simp)

/-! ### Lines -/

theorem estimate_does (yo : Yo) (mode : ParseMode) (no : Nat) (s : SSt) (l : Str) :
    (Complete l ∧ ∃ e, sinexEpoch yo (fld l 5) = some e ∧ estimateLine yo mode no s l = .ok { s with rows := addEst s.rows ⟨fld l 1, fld l 2, fld l 3, fld l 4, e, num l 8⟩ }) ∨
    (Complete l ∧ sinexEpoch yo (fld l 5) = none ∧ estimateLine yo mode no s l = .panic) ∨
    (¬ Complete l ∧ mode = .permissive ∧ estimateLine yo mode no s l = .ok s) ∨
    (¬ Complete l ∧ mode = .strict ∧ ∃ e, estimateLine yo mode no s l = .err e ∧ Err.line e = no) := by
  unfold Complete estimateLine fld num addEst
  generalize words l = w
  rcases w with _ | ⟨a0, _ | ⟨a1, _ | ⟨a2, _ | ⟨a3, _ | ⟨a4, _ | ⟨a5, _ | ⟨a6, _ | ⟨a7, _ | ⟨a8, w⟩⟩⟩⟩⟩⟩⟩⟩⟩
  iterate 9 (cases mode <;> simp [short, Err.line])
  simp only [List.getElem?_cons_zero, List.getElem?_cons_succ, Option.bind_some, Option.getD_some]
  rcases hv : parseFloat a8 with _ | v
  · cases mode <;> simp [Err.line]
  · rcases he : sinexEpoch yo a5 with _ | e
    · right; left; simp [Res.orPanic, Res.bind]
    · left; simp [Res.orPanic, Res.bind]

/-- The block that is open, as far as it matters. -/
def Open (b : SBlock) (v : Bool) : Prop := b = .estimate ↔ v = true

theorem control_line (yo : Yo) (mode : ParseMode) (no : Nat) (s : SSt) {pre : List Str} {l : Str} (hs : Open s.block (lastSaid opens false pre))
    (he : ¬ "%ENDSNX".toList <+: l) (hn : ¬ IsEstimate (pre, l)) :
    ∃ s', sinexLine yo mode no s l = .ok (some s') ∧ Open s'.block (lastSaid opens false (pre ++ [l])) ∧ s'.agency = (agencyOf l).getD s.agency ∧ s'.rows = s.rows := by
  rw [lastSaid_snoc]
  unfold sinexLine agencyOf
  simp only [starts_iff]
  have ho : ∀ c t, l = c :: t → c ≠ '+' → c ≠ '-' → opens l = none := by
    intro c t h h1 h2
    subst h
    unfold opens
    have n1 : ¬ "+".toList <+: c :: t := head_ne (Ne.symm h1)
    have n2 : ¬ "-".toList <+: c :: t := head_ne (Ne.symm h2)
    rw [if_neg n1, if_neg n2]
  by_cases h1 : "%=SNX".toList <+: l
  · obtain ⟨t, rfl⟩ := h1
    have h1 : "%=SNX".toList <+: "%=SNX".toList ++ t := ⟨t, rfl⟩
    rw [if_pos h1, if_pos h1, ho '%' ("=SNX".toList ++ t) rfl (by decide) (by decide)]
    rcases words ("%=SNX".toList ++ t) with _ | ⟨a, _ | ⟨b, _ | ⟨c, w⟩⟩⟩ <;> exact ⟨_, rfl, hs, rfl, rfl⟩
  · rw [if_neg h1, if_neg h1, if_neg he]
    by_cases h2 : "*".toList <+: l ∨ "%".toList <+: l
    · rw [if_pos h2]
      have h3 : opens l = none := by
        rcases h2 with ⟨t, rfl⟩ | ⟨t, rfl⟩
        · exact ho '*' t rfl (by decide) (by decide)
        · exact ho '%' t rfl (by decide) (by decide)
      rw [h3]
      exact ⟨s, rfl, hs, rfl, rfl⟩
    · rw [if_neg h2]
      push Not at h2
      cases l with
      | nil =>
        have hb : s.block ≠ .estimate := by
          intro hb
          have n : ∀ (c : Char) (p : Str), ¬ (c :: p) <+: ([] : Str) := fun c p => by simp
          exact hn ⟨hs.mp hb, n _ _, n _ _, n _ _, n _ _⟩
        refine ⟨s, ?_, ?_, rfl, rfl⟩
        · rcases hbb : s.block with _ | _ | _
          · rfl
          · rfl
          · exact absurd hbb hb
        · have : opens [] = none := by decide
          rw [this]; exact hs
      | cons c t =>
        by_cases c1 : c = '+'
        · subst c1
          refine ⟨_, rfl, ?_, rfl, rfl⟩
          have : opens ('+' :: t) = some (decide (trim t = "SOLUTION/ESTIMATE".toList)) := by
            unfold opens
            rw [if_pos ⟨t, rfl⟩]
            rfl
          rw [this]
          unfold Open blockOf
          simp only [Option.getD_some, decide_eq_true_eq]
          by_cases h3 : trim t = "SITE/ID".toList
          · rw [if_pos h3, h3]; decide
          · rw [if_neg h3]
            by_cases h4 : trim t = "SOLUTION/ESTIMATE".toList
            · rw [if_pos h4]; simp [h4]
            · rw [if_neg h4]
              exact ⟨fun h => by simp at h, fun h => absurd h h4⟩
        · by_cases c2 : c = '-'
          · subst c2
            refine ⟨{ s with block := .none }, rfl, ?_, rfl, rfl⟩
            have : opens ('-' :: t) = some false := by
              unfold opens
              have n1 : ¬ "+".toList <+: '-' :: t := head_ne (by decide)
              rw [if_neg n1, if_pos ⟨t, rfl⟩]
            rw [this]
            unfold Open
            simp
          · rw [ho c t rfl c1 c2]
            have hb : s.block ≠ .estimate := by
              intro hb
              exact hn ⟨hs.mp hb, h2.1, h2.2, head_ne (Ne.symm c1), head_ne (Ne.symm c2)⟩
            refine ⟨s, ?_, hs, rfl, rfl⟩
            split
            · rename_i h; simp only [List.cons.injEq] at h; exact absurd h.1 c1
            · rename_i h; simp only [List.cons.injEq] at h; exact absurd h.1 c2
            · rcases hbb : s.block with _ | _ | _
              · rfl
              · rfl
              · exact absurd hbb hb

theorem estimate_line (yo : Yo) (mode : ParseMode) (no : Nat) (s : SSt) {pre : List Str} {l : Str} (hs : Open s.block (lastSaid opens false pre)) (hn : IsEstimate (pre, l)) :
    sinexLine yo mode no s l = (estimateLine yo mode no s l).bind (fun s' => .ok (some s')) ∧ opens l = none ∧ agencyOf l = none := by
  obtain ⟨h0, h1, h2, h3, h4⟩ := hn
  dsimp only at h0 h1 h2 h3 h4
  have hp : ∀ p : Str, ¬ ('%' :: p) <+: l := by
    intro p hp
    apply h2
    obtain ⟨t, rfl⟩ := hp
    exact ⟨p ++ t, rfl⟩
  have hb : s.block = .estimate := hs.mpr h0
  have q1 : ¬ "%=SNX".toList <+: l := hp "=SNX".toList
  have q2 : ¬ "%ENDSNX".toList <+: l := hp "ENDSNX".toList
  have q3 : ¬ ("*".toList <+: l ∨ "%".toList <+: l) := fun h => h.elim h1 h2
  refine ⟨?_, by unfold opens; rw [if_neg h3, if_neg h4], by unfold agencyOf; rw [if_neg q1]⟩
  unfold sinexLine
  simp only [starts_iff]
  rw [if_neg q1, if_neg q2, if_neg q3]
  split
  · exact absurd ⟨_, rfl⟩ h3
  · exact absurd ⟨_, rfl⟩ h4
  · rw [hb]

theorem sinex_loop (yo : Yo) (mode : ParseMode) (ls : List Str) : ∀ (pre : List Str) (s : SSt), Open s.block (lastSaid opens false pre) →
    ((∀ p ∈ splitsFrom pre (snxBody ls), ¬ Refused mode p ∧ ¬ Overflows yo p) ∧ ∃ s', sinexLoop yo mode (pre.length + 1) s ls = .ok s' ∧
      s'.agency = lastSaid agencyOf s.agency (snxBody ls) ∧ s'.rows = ((splitsFrom pre (snxBody ls)).filterMap (estAt yo)).foldl addEst s.rows) ∨
    ((∃ e, sinexLoop yo mode (pre.length + 1) s ls = .err e ∧ ∃ p ∈ splitsFrom pre (snxBody ls), Refused mode p ∧ Err.line e = p.1.length + 1 ∧
      ∀ p' ∈ splitsFrom pre (snxBody ls), p'.1.length < p.1.length → ¬ Refused mode p' ∧ ¬ Overflows yo p')) ∨
    (sinexLoop yo mode (pre.length + 1) s ls = .panic ∧ ∃ p ∈ splitsFrom pre (snxBody ls), Overflows yo p) := by
  induction ls with
  | nil => intro pre s _; left; simp [snxBody, splitsFrom, sinexLoop, lastSaid]
  | cons l ls ih =>
    intro pre s hs
    by_cases hend : "%ENDSNX".toList <+: l
    · left
      have hb : snxBody (l :: ls) = [] := by unfold snxBody; rw [List.takeWhile_cons]; simp only [hend, not_true, decide_false, Bool.false_eq_true, if_false]
      have hl : sinexLine yo mode (pre.length + 1) s l = .ok none := by
        unfold sinexLine
        simp only [starts_iff]
        rw [if_neg, if_pos hend]
        intro h
        exact absurd (List.prefix_of_prefix_length_le h hend (by decide)) (by decide)
      refine ⟨by simp [hb, splitsFrom], s, by rw [sinexLoop, hl]; rfl, by simp [hb, lastSaid], by simp [hb, splitsFrom]⟩
    · have hb : snxBody (l :: ls) = l :: snxBody ls := by unfold snxBody; rw [List.takeWhile_cons]; simp only [hend, not_false_eq_true, decide_true, if_true]
      rw [hb, splitsFrom]
      have hlen : (pre ++ [l]).length = pre.length + 1 := by simp
      have later : ∀ p ∈ splitsFrom (pre ++ [l]) (snxBody ls), pre.length < p.1.length := by
        intro p hp
        obtain ⟨a, b, h1, _⟩ := mem_splitsFrom.mp hp
        rw [h1]; simp
      have cont : ∀ s' : SSt, Open s'.block (lastSaid opens false (pre ++ [l])) → (¬ Refused mode (pre, l) ∧ ¬ Overflows yo (pre, l)) →
          s'.agency = (agencyOf l).getD s.agency → s'.rows = (estAt yo (pre, l)).toList.foldl addEst s.rows →
          sinexLine yo mode (pre.length + 1) s l = .ok (some s') →
          ((∀ p ∈ (pre, l) :: splitsFrom (pre ++ [l]) (snxBody ls), ¬ Refused mode p ∧ ¬ Overflows yo p) ∧ ∃ s', sinexLoop yo mode (pre.length + 1) s (l :: ls) = .ok s' ∧
            s'.agency = lastSaid agencyOf s.agency (l :: snxBody ls) ∧
            s'.rows = (((pre, l) :: splitsFrom (pre ++ [l]) (snxBody ls)).filterMap (estAt yo)).foldl addEst s.rows) ∨
          ((∃ e, sinexLoop yo mode (pre.length + 1) s (l :: ls) = .err e ∧ ∃ p ∈ (pre, l) :: splitsFrom (pre ++ [l]) (snxBody ls), Refused mode p ∧ Err.line e = p.1.length + 1 ∧
            ∀ p' ∈ (pre, l) :: splitsFrom (pre ++ [l]) (snxBody ls), p'.1.length < p.1.length → ¬ Refused mode p' ∧ ¬ Overflows yo p')) ∨
          (sinexLoop yo mode (pre.length + 1) s (l :: ls) = .panic ∧ ∃ p ∈ (pre, l) :: splitsFrom (pre ++ [l]) (snxBody ls), Overflows yo p) := by
        intro s' h1 hg ha hr hl
        have hstep : sinexLoop yo mode (pre.length + 1) s (l :: ls) = sinexLoop yo mode ((pre ++ [l]).length + 1) s' ls := by
          rw [sinexLoop, hl, hlen]; rfl
        rw [hstep]
        rcases ih (pre ++ [l]) s' h1 with ⟨g, s'', r, o1, o2⟩ | ⟨e, r, p, hp, hb, hn, hf⟩ | ⟨r, p, hp, hb⟩
        · left
          refine ⟨fun p hp => ?_, s'', r, ?_, ?_⟩
          · rcases List.mem_cons.mp hp with rfl | hp
            · exact hg
            · exact g p hp
          · rw [o1, ha, lastSaid_cons]
          · rw [o2, hr, filterMap_cons_toList, List.foldl_append]
        · right; left
          refine ⟨e, r, p, List.mem_cons_of_mem _ hp, hb, hn, fun p' hp' hlt => ?_⟩
          rcases List.mem_cons.mp hp' with rfl | hp'
          · exact hg
          · exact hf p' hp' hlt
        · right; right
          exact ⟨r, p, List.mem_cons_of_mem _ hp, hb⟩
      by_cases hr : IsEstimate (pre, l)
      · obtain ⟨hl, h1, h2⟩ := estimate_line yo mode (pre.length + 1) s hs hr
        have hblock : Open s.block (lastSaid opens false (pre ++ [l])) := by rw [lastSaid_snoc, h1]; exact hs
        rcases estimate_does yo mode (pre.length + 1) s l with ⟨hc, e, he, hx⟩ | ⟨hc, he, hx⟩ | ⟨hc, hm, hx⟩ | ⟨hc, hm, e, hx, hn⟩
        · refine cont { s with rows := addEst s.rows ⟨fld l 1, fld l 2, fld l 3, fld l 4, e, num l 8⟩ } hblock ⟨fun h => h.2.2 hc, fun h => ?_⟩ (by rw [h2]; rfl) ?_ (by rw [hl, hx]; rfl)
          · have := h.2.2
            dsimp only at this
            rw [he] at this
            simp at this
          · unfold estAt
            rw [if_pos ⟨hr, hc⟩]
            dsimp only
            rw [he]
            rfl
        · right; right
          exact ⟨by rw [sinexLoop, hl, hx]; rfl, (pre, l), by simp, hr, hc, he⟩
        · refine cont s hblock ⟨fun h => ?_, fun h => hc h.2.1⟩ (by rw [h2]; rfl) ?_ (by rw [hl, hx]; rfl)
          · rw [hm] at h
            exact absurd h.1 (by decide)
          · unfold estAt
            rw [if_neg (fun h => hc h.2)]
            rfl
        · right; left
          refine ⟨e, by rw [sinexLoop, hl, hx]; rfl, (pre, l), by simp, ⟨hm, hr, hc⟩, hn, ?_⟩
          intro p' hp' hlt
          rcases List.mem_cons.mp hp' with rfl | hp'
          · exact absurd hlt (lt_irrefl _)
          · exact absurd (later p' hp') (by dsimp only at hlt; omega)
      · obtain ⟨s', hl, h1, h2, h3⟩ := control_line yo mode (pre.length + 1) s hs hend hr
        refine cont s' h1 ⟨fun h => hr h.2.1, fun h => hr h.1⟩ h2 ?_ hl
        unfold estAt
        rw [if_neg (fun h => hr h.1), h3]
        rfl

/-- The estimates a file states, in order. -/
def estimates (yo : Yo) (ls : List Str) : List Est := (splits (snxBody ls)).filterMap (estAt yo)

/-- Reading a SINEX file, whatever the order in which the map is walked. It succeeds exactly if no line is refused and no year overflows;
the stations are those the estimates give, each code once; an error names the first refused line; only an overflowing year panics. -/
theorem sinex_reads (yo : Yo) {order : List (Str × Row) → List (Str × Row)} (ho : ∀ l, (order l).Perm l) (mode : ParseMode) (text : Str) :
    ((∃ out, readSinex yo order mode text = .ok out) ↔ ∀ p ∈ splits (snxBody (lines text)), ¬ Refused mode p ∧ ¬ Overflows yo p) ∧
    (∀ out, readSinex yo order mode text = .ok out → out.1 = lastSaid agencyOf [] (snxBody (lines text)) ∧
      (∀ st, st ∈ out.2 ↔ Stands (estimates yo (lines text)) st) ∧ (out.2.map (·.code)).Nodup) ∧
    (∀ e, readSinex yo order mode text = .err e → ∃ p ∈ splits (snxBody (lines text)), Refused mode p ∧ Err.line e = p.1.length + 1 ∧
      ∀ p' ∈ splits (snxBody (lines text)), p'.1.length < p.1.length → ¬ Refused mode p' ∧ ¬ Overflows yo p') ∧
    (readSinex yo order mode text = .panic → ∃ p ∈ splits (snxBody (lines text)), Overflows yo p) := by
  have h := sinex_loop yo mode (lines text) [] ⟨.none, [], []⟩ (by unfold Open lastSaid; simp)
  unfold readSinex splits
  simp only [List.length_nil, Nat.zero_add] at h
  rcases h with ⟨g, s, r, o1, o2⟩ | ⟨e, r, p, hp, hb, hn, hf⟩ | ⟨r, p, hp, hb⟩
  · rw [r]
    refine ⟨⟨fun _ => g, fun _ => ⟨_, rfl⟩⟩, fun out hout => ?_, fun e he => by simp [Res.bind] at he, fun h => by simp [Res.bind] at h⟩
    simp only [Res.bind, Res.ok.injEq] at hout
    subst hout
    dsimp only
    have hrows : s.rows = (estimates yo (lines text)).foldl addEst [] := o2
    refine ⟨o1, fun st => ?_, ?_⟩
    · rw [List.mem_filterMap, ← station_stands, ← hrows]
      constructor
      · rintro ⟨p, hp, hs⟩; exact ⟨p, (ho _).mem_iff.mp hp, hs⟩
      · rintro ⟨p, hp, hs⟩; exact ⟨p, (ho _).mem_iff.mpr hp, hs⟩
    · have hk : ((order s.rows).map Prod.fst).Nodup := by
        rw [((ho s.rows).map Prod.fst).nodup_iff, hrows]
        exact (rows_hold _).1
      have hsub : ∀ l : List (Str × Row), ((l.filterMap station).map (·.code)).Sublist (l.map Prod.fst) := by
        intro l
        induction l with
        | nil => simp
        | cons p l ih =>
          rw [filterMap_cons_toList, List.map_append, List.map_cons]
          unfold station
          rcases three p.2.x p.2.y p.2.z with _ | v
          · exact (ih.cons _)
          · exact ih.cons_cons _
      exact (hsub _).nodup hk
  · rw [r]
    refine ⟨⟨fun ⟨_, h⟩ => by simp [Res.bind] at h, fun h => absurd hb (h p hp).1⟩, fun out h => by simp [Res.bind] at h, fun e' he => ?_, fun h => by simp [Res.bind] at h⟩
    simp only [Res.bind, Res.err.injEq] at he
    subst he
    exact ⟨p, hp, hb, hn, hf⟩
  · rw [r]
    refine ⟨⟨fun ⟨_, h⟩ => by simp [Res.bind] at h, fun h => absurd hb (h p hp).2⟩, fun out h => by simp [Res.bind] at h, fun e' he => by simp [Res.bind] at he, fun _ => ⟨p, hp, hb⟩⟩

/-! ### Values and solutions -/

theorem lastValue_stated {es : List Est} {code : Str} {typ : String} {v : F64} (h : lastValue es code typ = some v) :
    ∃ a e b, es = a ++ e :: b ∧ e.code = code ∧ e.typ = typ.toList ∧ e.value = v ∧ ∀ e' ∈ b, e'.code = code → e'.typ ≠ typ.toList := by
  unfold lastValue at h
  rw [Option.map_eq_some_iff] at h
  obtain ⟨e, he, hv⟩ := h
  rw [List.find?_eq_some_iff_append] at he
  obtain ⟨hp, as, bs, hs, hn⟩ := he
  simp only [decide_eq_true_eq] at hp
  refine ⟨bs.reverse, e, as.reverse, ?_, hp.1, hp.2, hv, ?_⟩
  · have := congrArg List.reverse hs
    simpa using this
  · intro e' he' hc ht
    have := hn e' (List.mem_reverse.mp he')
    simp [hc, ht] at this

/-- A station is made of values the file states for its code: the last of each type. -/
theorem sinex_values_stated {es : List Est} {st : Station} (h : Stands es st) :
    ∀ tv ∈ [("STAX", st.pos.1), ("STAY", st.pos.2.1), ("STAZ", st.pos.2.2)],
      ∃ a e b, es = a ++ e :: b ∧ e.code = st.code ∧ e.typ = tv.1.toList ∧ e.value = tv.2 ∧ ∀ e' ∈ b, e'.code = st.code → e'.typ ≠ tv.1.toList := by
  intro tv htv
  simp only [List.mem_cons, List.not_mem_nil, or_false] at htv
  rcases htv with rfl | rfl | rfl
  · exact lastValue_stated h.1
  · exact lastValue_stated h.2.1
  · exact lastValue_stated h.2.2.1

/-- Where a code has one solution, the station is that solution: its point, number and epoch, and coordinates all of it. -/
theorem sinex_one_solution {es : List Est} {st : Station} (h : Stands es st) {pt soln : Str} {epoch : F64}
    (hone : ∀ e ∈ es, e.code = st.code → e.pt = pt ∧ e.soln = soln ∧ e.epoch = epoch) :
    st.pt = pt ∧ st.soln = soln ∧ st.epoch = epoch := by
  obtain ⟨_, _, _, ⟨e, he, h1, h2, h3⟩, _⟩ := h
  unfold lastEst at he
  have hm := List.mem_reverse.mp (List.mem_of_find?_eq_some he)
  have hc := List.find?_some he
  simp only [decide_eq_true_eq] at hc
  obtain ⟨a, b, c⟩ := hone e hm hc
  exact ⟨h1.trans a, h2.trans b, h3.trans c⟩

/-! ### Epochs -/

/-- The year two digits stand for by the convention of the format: up to 50 in this century, from 51 in the last. -/
def conventional (yy : Nat) : Nat := if yy ≤ 50 then 2000 + yy else 1900 + yy

/-- `YY:DDD:SSSSS` is read as that instant for years of this century up to 2050 and of the last from 1980. -/
theorem sinex_epoch {yo : Yo} (h : YoOk yo) {yy m d : Nat} (hy : yy ≤ 50 ∨ (80 ≤ yy ∧ yy ≤ 99)) (hv : Valid (conventional yy) m d) {s a b c : Str} {q : ℚ}
    (hs : splitChar ':' s = [a, b, c]) (ha : parseInt i32Max a = some (yy : Int)) (hb : parseUInt u32Max b = some (ordinal (conventional yy) m d))
    (hc : parseFloat c = some (.num q)) : sinexEpoch yo s = some (.num ((dayNumber (conventional yy) m d : ℚ) - 2400001 + q / 86400)) := by
  unfold sinexEpoch
  rw [hs]
  simp only [ha, hb, hc, Option.getD_some]
  have hf : fullYear (yy : Int) = some (conventional yy : Int) := by
    unfold fullYear conventional i32Max
    rcases hy with hy | ⟨h1, h2⟩
    · rw [if_pos hy]
      by_cases h0 : yy = 0
      · subst h0; rfl
      · rw [if_neg (by exact_mod_cast h0), if_neg (by omega)]; push_cast; rfl
    · have e1 : ¬ (yy : Int) = 0 := by omega
      have e2 : (80 : Int) ≤ yy := by omega
      have e3 : 1900 + (yy : Int) ≤ (2147483647 : Nat) := by omega
      have e4 : ¬ yy ≤ 50 := by omega
      rw [if_neg e1, if_pos e2, if_pos e3, if_neg e4]; push_cast; rfl
  rw [hf]
  unfold yearDay
  have h1 : max (ordinal (conventional yy) m d) 1 = ordinal (conventional yy) m d := max_eq_left (Naming.Props.ordinal_bounds hv).1
  simp only [Option.map_some, h1, h _ m d hv, addSod]
  push_cast
  rfl

example : ∃ s : Str, splitChar ':' s = ["95".toList, "032".toList, "43200".toList] ∧ parseInt i32Max "95".toList = some ((95 : Nat) : Int) ∧
    parseUInt u32Max "032".toList = some (ordinal (conventional 95) 2 1) ∧ parseFloat "43200".toList = some (.num 43200) ∧ Valid (conventional 95) 2 1 :=
  ⟨"95:032:43200".toList, by decide, by decide +kernel, by decide +kernel, by decide +kernel, ⟨by decide, by decide, by decide, by decide +kernel⟩⟩

/-- Disagreement: the years 1951 to 1979 are read a century late. -/
theorem sinex_pivot {yy : Nat} (h1 : 51 ≤ yy) (h2 : yy ≤ 79) : fullYear (yy : Int) = some (conventional yy + 100 : Int) := by
  unfold fullYear conventional
  rw [if_neg (by omega), if_neg (by omega), if_neg (by omega)]
  push_cast
  congr 1
  omega

/-! ### Concrete files and disagreements -/

def sampleSinex : Str :=
  "%=SNX 2.10 IGS 24:001:00000\n+SOLUTION/ESTIMATE\n*comment\n 1 STAX ABCD A 1 20:001:00000 m 2 1.5E+06 1e-4\n 2 STAY ABCD A 1 20:001:00000 m 2 -2E+06\n 3 STAZ ABCD A 1 20:001:00000 m 2 3E+06\n 4 VELX ABCD A 1 20:001:00000 m/y 2 0.01\n 5 STAX WXYZ A 1 20:001:00000 m 2 7\n-SOLUTION/ESTIMATE\n%ENDSNX\nrest".toList

/-- One station has three coordinates, none has three velocities. -/
theorem sample_sinex : readSinex plainYo id .strict sampleSinex =
    .ok ("IGS".toList, [⟨"ABCD".toList, "A".toList, "1".toList, .num 58849, (.num 1500000, .num (-2000000), .num 3000000), none⟩]) := by
  decide +kernel

/-- Disagreement: solutions are kept by station code alone. Of two solutions of one station only one comes back, and if the second is
incomplete the position has coordinates of both, under the name of the second. -/
theorem sinex_mixed : readSinex plainYo id .strict
    "+SOLUTION/ESTIMATE\n 1 STAX ABCD A 1 20:001:00000 m 2 1\n 2 STAY ABCD A 1 20:001:00000 m 2 2\n 3 STAZ ABCD A 1 20:001:00000 m 2 3\n 4 STAX ABCD B 2 21:001:00000 m 2 10\n".toList =
    .ok ([], [⟨"ABCD".toList, "B".toList, "2".toList, .num 59215, (.num 10, .num 2, .num 3), none⟩]) := by
  decide +kernel

/-- Disagreement, for every file: of the solutions of a code at most one is ever returned. -/
theorem sinex_one_per_code {yo : Yo} {order : List (Str × Row) → List (Str × Row)} (ho : ∀ l, (order l).Perm l) {mode : ParseMode} {text : Str} {out : Str × List Station}
    (h : readSinex yo order mode text = .ok out) {a b : Station} (ha : a ∈ out.2) (hb : b ∈ out.2) (hc : a.code = b.code) : a = b := by
  have hn := ((sinex_reads yo ho mode text).2.1 out h).2.2
  exact List.inj_on_of_nodup_map hn ha hb hc

/-- An epoch that is not three parts between colons becomes day zero of the modified Julian count. -/
theorem sinex_epoch_shape (yo : Yo) {s : Str} (h : (splitChar ':' s).length ≠ 3) : sinexEpoch yo s = some (.num 0) := by
  unfold sinexEpoch
  split
  · rename_i hs
    rw [hs] at h
    exact absurd rfl h
  · rfl

example : (splitChar ':' "20:001:00000:5".toList).length ≠ 3 := by decide +kernel

/-- Disagreement: an epoch that cannot be read is no error, not even in strict mode; a large year number overflows; and a blank line in the
block is an error in strict mode. -/
theorem sinex_epochs_silent :
    sinexEpoch plainYo "garbage".toList = some (.num 0) ∧ sinexEpoch plainYo "x:y:z".toList = some (.num 51544) ∧
    sinexEpoch plainYo "00:000:00000".toList = some (.num 51544) ∧ sinexEpoch plainYo "23:366:00000".toList = some (.num 0) ∧
    sinexEpoch plainYo "2020:001:00000".toList ≠ sinexEpoch plainYo "20:001:00000".toList ∧
    readSinex plainYo id .permissive "+SOLUTION/ESTIMATE\n 1 STAX ABCD A 1 2147483647:001:00000 m 2 1\n".toList = .panic ∧
    readSinex plainYo id .strict "+SOLUTION/ESTIMATE\n\n-SOLUTION/ESTIMATE\n".toList = .err (.fields 2) := by
  decide +kernel

end Verif.Igs.Props
