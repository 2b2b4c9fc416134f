import Verif.Igs.Model
import Verif.Cpf.Read
import Verif.Naming.Props

/-
Reading ORBEX: every record carries the epoch of the last header before it and belongs to the section of the last marker.
-/
namespace Verif.Igs.Props
open Verif.Text Verif.Igs
open Verif.Calendar (Valid dayNumber)
open Verif.Naming (ordinal)

/-! ### Specification -/

/-- The lines before the end of the file. -/
def body (ls : List Str) : List Str := ls.takeWhile (fun l => ¬ ("%ENDORBEX".toList <+: l ∨ "%EOF".toList <+: l))

/-- Every line together with the lines before it. -/
def splitsFrom (pre : List Str) : List Str → List (List Str × Str)
  | [] => []
  | l :: ls => (pre, l) :: splitsFrom (pre ++ [l]) ls

def splits (ls : List Str) : List (List Str × Str) := splitsFrom [] ls

theorem mem_splitsFrom {q : List Str} {p : List Str × Str} {ls : List Str} :
    p ∈ splitsFrom q ls ↔ ∃ pre post, p.1 = q ++ pre ∧ ls = pre ++ p.2 :: post := by
  induction ls generalizing q with
  | nil => simp [splitsFrom]
  | cons l ls ih =>
    simp only [splitsFrom, List.mem_cons, ih]
    constructor
    · rintro (rfl | ⟨pre, post, h1, h2⟩)
      · exact ⟨[], ls, by simp, rfl⟩
      · exact ⟨l :: pre, post, by simp [h1], by simp [h2]⟩
    · rintro ⟨pre, post, h1, h2⟩
      cases pre with
      | nil =>
        simp only [List.nil_append, List.cons.injEq] at h2
        left
        rw [Prod.ext_iff]
        exact ⟨by simpa using h1, h2.1.symm⟩
      | cons a pre =>
        simp only [List.cons_append, List.cons.injEq] at h2
        right
        exact ⟨pre, post, by simp [h1, h2.1], h2.2⟩

/-- The members are the ways to cut the list. -/
theorem mem_splits {p : List Str × Str} {ls : List Str} : p ∈ splits ls ↔ ∃ post, ls = p.1 ++ p.2 :: post := by
  unfold splits
  rw [mem_splitsFrom]
  simp only [List.nil_append]
  constructor
  · rintro ⟨pre, post, h1, h2⟩; exact ⟨post, by rw [h1]; exact h2⟩
  · rintro ⟨post, h⟩; exact ⟨p.1, post, rfl, h⟩

/-- The section a line opens: `#ORB`, `#CLK`, `#ATT`, or an unknown one. -/
def marker (l : Str) : Option Section :=
  if "##".toList <+: l then none
  else if "#ORB".toList <+: l then some .orb
  else if "#CLK".toList <+: l then some .clk
  else if "#ATT".toList <+: l then some .att
  else if "#".toList <+: l then some .none
  else none

/-- The epoch a header `## year day-of-year seconds` states. -/
def header (yo : Yo) (l : Str) : Option F64 :=
  if "##".toList <+: l then
    match words (l.dropWhile (· = '#')) with
    | y :: d :: s :: _ => some (yearDay yo ((parseInt i32Max y).getD 2000) ((parseUInt u32Max d).getD 1) ((parseFloat s).getD (.num 0)))
    | _ => none
  else none

/-- The version a first line states. -/
def version (l : Str) : Option Str := if "%=ORBEX".toList <+: l then (words l)[1]? else none

/-- What the last of the lines that say something says. -/
def lastSaid {α : Type} (f : Str → Option α) (dflt : α) (ls : List Str) : α := (ls.reverse.findSome? f).getD dflt

def sectionAt (pre : List Str) : Section := lastSaid marker .none pre
def epochAt (yo : Yo) (pre : List Str) : F64 := lastSaid (header yo) (.num 0) pre

/-- A record: a line that begins with a blank and is not blank. -/
def IsRecord (l : Str) : Prop := [' '] <+: l ∧ words l ≠ []

instance (l : Str) : Decidable (IsRecord l) := by unfold IsRecord; infer_instance

/-- How many fields a record needs. -/
def need : Section → Nat
  | .orb => 4
  | .clk => 2
  | .att => 5
  | .none => 0

/-- The fields of a record that are numbers. -/
def numeric (s : Section) (n : Nat) : List Nat :=
  match s with
  | .orb => if 7 ≤ n then [1, 2, 3, 4, 5, 6] else [1, 2, 3]
  | .clk => [1]
  | .att => [1, 2, 3, 4]
  | .none => []

/-- Field `i`, as a number. -/
def num (l : Str) (i : Nat) : F64 := ((words l)[i]?.bind parseFloat).getD .nan

/-- A line that gives no error: a record has the fields it needs (not asked for in permissive mode) and its numbers are numbers. -/
def Good (mode : ParseMode) (p : List Str × Str) : Prop :=
  IsRecord p.2 →
    if (words p.2).length < need (sectionAt p.1) then mode = .permissive
    else ∀ i ∈ numeric (sectionAt p.1) (words p.2).length, ((words p.2)[i]?.bind parseFloat).isSome

/-- The line is a complete record of the section. -/
def Holds (s : Section) (p : List Str × Str) : Prop := IsRecord p.2 ∧ sectionAt p.1 = s ∧ need s ≤ (words p.2).length

instance (s : Section) (p : List Str × Str) : Decidable (Holds s p) := by unfold Holds; infer_instance

def satellite (l : Str) : Str := (words l)[0]?.getD []

def orbitAt (yo : Yo) (p : List Str × Str) : Option Orb :=
  if Holds .orb p then
    some ⟨satellite p.2, epochAt yo p.1, (num p.2 1, num p.2 2, num p.2 3), if 7 ≤ (words p.2).length then some (num p.2 4, num p.2 5, num p.2 6) else none⟩
  else none

def clockAt (yo : Yo) (p : List Str × Str) : Option Clk :=
  if Holds .clk p then some ⟨satellite p.2, epochAt yo p.1, num p.2 1⟩ else none

def attitudeAt (yo : Yo) (p : List Str × Str) : Option Att :=
  if Holds .att p then some ⟨satellite p.2, epochAt yo p.1, (num p.2 1, num p.2 2, num p.2 3, num p.2 4)⟩ else none

/-- What the file says. -/
def product (yo : Yo) (ls : List Str) : Orbex :=
  ⟨lastSaid version [] ls, (splits ls).filterMap (orbitAt yo), (splits ls).filterMap (clockAt yo), (splits ls).filterMap (attitudeAt yo)⟩

/-- The line of an error. -/
def Err.line : Err → Nat
  | .fields n => n
  | .number n => n

/-! ### One line -/

theorem lastSaid_snoc {α : Type} (f : Str → Option α) (d : α) (pre : List Str) (l : Str) :
    lastSaid f d (pre ++ [l]) = (f l).getD (lastSaid f d pre) := by
  unfold lastSaid
  rw [List.reverse_append, List.reverse_singleton, List.singleton_append, List.findSome?_cons]
  cases f l <;> rfl

theorem starts_iff (p : String) (l : Str) : starts p l = true ↔ p.toList <+: l := by
  unfold starts
  exact List.isPrefixOf_iff_prefix

theorem words_trim (s : Str) : words (trim s) = words s := by
  unfold trim
  rw [Cpf.Props.words_trimEnd]
  unfold trimStart
  induction s with
  | nil => rfl
  | cons c s ih =>
    rw [List.dropWhile_cons]
    split
    · rename_i h; rw [ih, words_ws h]
    · rfl

/-- A prefix that begins with another character is no prefix. -/
theorem head_ne {c d : Char} {p t : Str} (h : c ≠ d) : ¬ (c :: p) <+: (d :: t) := by
  rw [List.cons_prefix_cons]
  exact fun hh => h hh.1

/-- What a line other than a record does. -/
theorem other_line (yo : Yo) (mode : ParseMode) (no : Nat) (s : OSt) {l : Str} (hr : ¬ IsRecord l) (he : ¬ ("%ENDORBEX".toList <+: l ∨ "%EOF".toList <+: l)) :
    orbexLine yo mode no s l = .ok (some ⟨(marker l).getD s.sect, (header yo l).getD s.epoch, { s.out with version := (version l).getD s.out.version }⟩) := by
  have e1 := fun p : String => starts_iff p l
  have e2 : ∀ p : String, starts p l = false ↔ ¬ p.toList <+: l := fun p => by rw [← e1, Bool.not_eq_true]
  unfold orbexLine marker header version
  simp only [e1, e2]
  have hh : headerEpoch yo l = (match words (l.dropWhile (· = '#')) with
    | y :: d :: s :: _ => some (yearDay yo ((parseInt i32Max y).getD 2000) ((parseUInt u32Max d).getD 1) ((parseFloat s).getD (.num 0)))
    | _ => none) := by
    unfold headerEpoch
    rw [words_trim]
    rfl
  rw [hh]
  cases l with
  | nil => simp
  | cons c t =>
    by_cases c1 : c = '%'
    · subst c1
      have n1 : ¬ "##".toList <+: '%' :: t := head_ne (by decide)
      have n2 : ¬ "#ORB".toList <+: '%' :: t := head_ne (by decide)
      have n3 : ¬ "#CLK".toList <+: '%' :: t := head_ne (by decide)
      have n4 : ¬ "#ATT".toList <+: '%' :: t := head_ne (by decide)
      have n5 : ¬ "#".toList <+: '%' :: t := head_ne (by decide)
      have p1 : "%".toList <+: '%' :: t := ⟨t, rfl⟩
      simp only [n1, n2, n3, n4, n5, p1, he, if_true, if_false, Option.getD_none]
      by_cases hv : "%=ORBEX".toList <+: '%' :: t
      · simp only [hv, if_true]
        rcases words ('%' :: t) with _ | ⟨a, _ | ⟨b, w⟩⟩ <;> rfl
      · simp only [hv, if_false, Option.getD_none]
    · have m1 : ¬ "%=ORBEX".toList <+: c :: t := head_ne (Ne.symm c1)
      have m2 : ¬ "%".toList <+: c :: t := head_ne (Ne.symm c1)
      by_cases c2 : c = '#'
      · subst c2
        have n1 : ¬ "+".toList <+: '#' :: t := head_ne (by decide)
        have n2 : ¬ "-".toList <+: '#' :: t := head_ne (by decide)
        have p1 : "#".toList <+: '#' :: t := ⟨t, rfl⟩
        simp only [m1, m2, he, n1, n2, p1, if_true, if_false, Option.getD_none, or_self]
        by_cases h2 : "##".toList <+: '#' :: t
        · simp only [h2, if_true, Option.getD_none]
          rcases words (('#' :: t).dropWhile (· = '#')) with _ | ⟨a, _ | ⟨b, _ | ⟨d, w⟩⟩⟩ <;> rfl
        · simp only [h2, if_false, Option.getD_none]
          by_cases h3 : "#ORB".toList <+: '#' :: t
          · simp only [h3, if_true]; rfl
          · by_cases h4 : "#CLK".toList <+: '#' :: t
            · simp only [h3, h4, if_true, if_false]; rfl
            · by_cases h5 : "#ATT".toList <+: '#' :: t
              · simp only [h3, h4, h5, if_true, if_false]; rfl
              · simp only [h3, h4, h5, if_false]; rfl
      · have n1 : ¬ "##".toList <+: c :: t := head_ne (Ne.symm c2)
        have n2 : ¬ "#ORB".toList <+: c :: t := head_ne (Ne.symm c2)
        have n3 : ¬ "#CLK".toList <+: c :: t := head_ne (Ne.symm c2)
        have n4 : ¬ "#ATT".toList <+: c :: t := head_ne (Ne.symm c2)
        have n5 : ¬ "#".toList <+: c :: t := head_ne (Ne.symm c2)
        simp only [m1, m2, he, n1, n2, n3, n4, n5, if_false, Option.getD_none]
        by_cases c3 : "+".toList <+: c :: t ∨ "-".toList <+: c :: t
        · simp only [c3, if_true]
        · simp only [c3, if_false]
          by_cases c4 : " ".toList <+: c :: t
          · have hw : words (c :: t) = [] := by
              by_contra hw
              exact hr ⟨c4, hw⟩
            simp only [c4, not_true, if_false, hw, if_true]
          · simp only [c4, not_false_eq_true, if_true]

/-- A record is handled by its section. -/
theorem record_line (yo : Yo) (mode : ParseMode) (no : Nat) (s : OSt) {l : Str} (hr : IsRecord l) :
    marker l = none ∧ header yo l = none ∧ version l = none ∧
    orbexLine yo mode no s l = (match s.sect with
        | .orb => orbLine mode no s (words l)
        | .clk => clkLine mode no s (words l)
        | .att => attLine mode no s (words l)
        | .none => .ok s).bind (fun s' => .ok (some s')) := by
  obtain ⟨⟨t, rfl⟩, hw⟩ := hr
  have hn : ∀ (c : Char) (p : Str), c ≠ ' ' → ¬ (c :: p) <+: ([' '] ++ t) := fun c p h => head_ne h
  have e1 := fun p : String => starts_iff p ([' '] ++ t)
  have e2 : ∀ p : String, starts p ([' '] ++ t) = false ↔ ¬ p.toList <+: ([' '] ++ t) := fun p => by rw [← e1, Bool.not_eq_true]
  have n1 : ¬ "##".toList <+: [' '] ++ t := hn _ _ (by decide)
  have n2 : ¬ "#ORB".toList <+: [' '] ++ t := hn _ _ (by decide)
  have n3 : ¬ "#CLK".toList <+: [' '] ++ t := hn _ _ (by decide)
  have n4 : ¬ "#ATT".toList <+: [' '] ++ t := hn _ _ (by decide)
  have n5 : ¬ "#".toList <+: [' '] ++ t := hn _ _ (by decide)
  have n6 : ¬ "%=ORBEX".toList <+: [' '] ++ t := hn _ _ (by decide)
  have n7 : ¬ "%".toList <+: [' '] ++ t := hn _ _ (by decide)
  have n8 : ¬ "%ENDORBEX".toList <+: [' '] ++ t := hn _ _ (by decide)
  have n9 : ¬ "%EOF".toList <+: [' '] ++ t := hn _ _ (by decide)
  have n10 : ¬ "+".toList <+: [' '] ++ t := hn _ _ (by decide)
  have n11 : ¬ "-".toList <+: [' '] ++ t := hn _ _ (by decide)
  have p1 : " ".toList <+: [' '] ++ t := ⟨t, rfl⟩
  refine ⟨by unfold marker; simp only [n1, n2, n3, n4, n5, if_false], by unfold header; simp only [n1, if_false], by unfold version; simp only [n6, if_false], ?_⟩
  unfold orbexLine
  simp only [e1, e2, n1, n2, n3, n4, n5, n6, n7, n8, n9, n10, n11, p1, hw, not_true, or_self, if_false]
  cases s.sect <;> rfl

/-! ### Records -/

theorem number_cases (no : Nat) (s : Str) : (∃ v, parseFloat s = some v ∧ number no s = .ok v) ∨ (parseFloat s = none ∧ number no s = .err (.number no)) := by
  unfold number
  rcases parseFloat s with _ | v
  · exact Or.inr ⟨rfl, rfl⟩
  · exact Or.inl ⟨v, rfl, rfl⟩

/-- A record line: the new state if it is good, an error at this line if not. -/
theorem record_does (yo : Yo) (mode : ParseMode) (no : Nat) (s : OSt) {pre : List Str} {l : Str} (hr : IsRecord l) (hs : s.sect = sectionAt pre) (he : s.epoch = epochAt yo pre) :
    (Good mode (pre, l) ∧ orbexLine yo mode no s l = .ok (some { s with out := { s.out with
        orbits := s.out.orbits ++ (orbitAt yo (pre, l)).toList
        clocks := s.out.clocks ++ (clockAt yo (pre, l)).toList
        attitudes := s.out.attitudes ++ (attitudeAt yo (pre, l)).toList } })) ∨
    (¬ Good mode (pre, l) ∧ ∃ e, orbexLine yo mode no s l = .err e ∧ Err.line e = no) := by
  rw [(record_line yo mode no s hr).2.2.2]
  unfold Good orbitAt clockAt attitudeAt Holds satellite num
  simp only [hr, true_and, forall_const, ← hs, ← he]
  rcases s with ⟨sect, ep, out⟩
  dsimp only at hs he ⊢
  clear hs he
  generalize words l = w
  cases sect with
  | none => left; simp [need, numeric, Res.bind]
  | clk =>
    rcases w with _ | ⟨a, _ | ⟨b, w⟩⟩
    · cases mode <;> simp [need, clkLine, short, Res.bind, Err.line]
    · cases mode <;> simp [need, clkLine, short, Res.bind, Err.line]
    · rcases number_cases no b with ⟨v, h1, h2⟩ | ⟨h1, h2⟩
      · left; simp [need, numeric, clkLine, h1, h2, Res.bind]
      · right; simp [need, numeric, clkLine, h1, h2, Res.bind, Err.line]
  | att =>
    rcases w with _ | ⟨a, _ | ⟨b, _ | ⟨c, _ | ⟨d, _ | ⟨e, w⟩⟩⟩⟩⟩
    iterate 5 (cases mode <;> simp [need, attLine, short, Res.bind, Err.line])
    rcases number_cases no b with ⟨v1, h1, k1⟩ | ⟨h1, k1⟩
    · rcases number_cases no c with ⟨v2, h2, k2⟩ | ⟨h2, k2⟩
      · rcases number_cases no d with ⟨v3, h3, k3⟩ | ⟨h3, k3⟩
        · rcases number_cases no e with ⟨v4, h4, k4⟩ | ⟨h4, k4⟩
          · left; simp [need, numeric, attLine, h1, h2, h3, h4, k1, k2, k3, k4, Res.bind]
          · right; simp [need, numeric, attLine, h4, k1, k2, k3, k4, Res.bind, Err.line]
        · right; simp [need, numeric, attLine, h3, k1, k2, k3, Res.bind, Err.line]
      · right; simp [need, numeric, attLine, h2, k1, k2, Res.bind, Err.line]
    · right; simp [need, numeric, attLine, h1, k1, Res.bind, Err.line]
  | orb =>
    rcases w with _ | ⟨a, _ | ⟨b, _ | ⟨c, _ | ⟨d, w⟩⟩⟩⟩
    iterate 4 (cases mode <;> simp [need, orbLine, short, Res.bind, Err.line])
    rcases number_cases no b with ⟨v1, h1, k1⟩ | ⟨h1, k1⟩
    · rcases number_cases no c with ⟨v2, h2, k2⟩ | ⟨h2, k2⟩
      · rcases number_cases no d with ⟨v3, h3, k3⟩ | ⟨h3, k3⟩
        · rcases w with _ | ⟨e, _ | ⟨f, _ | ⟨g, w⟩⟩⟩
          iterate 3 (left; simp [need, numeric, orbLine, velocity, h1, h2, h3, k1, k2, k3, Res.bind])
          rcases number_cases no e with ⟨v4, h4, k4⟩ | ⟨h4, k4⟩
          · rcases number_cases no f with ⟨v5, h5, k5⟩ | ⟨h5, k5⟩
            · rcases number_cases no g with ⟨v6, h6, k6⟩ | ⟨h6, k6⟩
              · left; simp [need, numeric, orbLine, velocity, h1, h2, h3, h4, h5, h6, k1, k2, k3, k4, k5, k6, Res.bind]
              · right; simp [need, numeric, orbLine, velocity, h6, k1, k2, k3, k4, k5, k6, Res.bind, Err.line]
            · right; simp [need, numeric, orbLine, velocity, h5, k1, k2, k3, k4, k5, Res.bind, Err.line]
          · right; simp [need, numeric, orbLine, velocity, h4, k1, k2, k3, k4, Res.bind, Err.line]
        · right
          rcases w with _ | ⟨e, _ | ⟨f, _ | ⟨g, w⟩⟩⟩ <;> simp [need, numeric, orbLine, h3, k1, k2, k3, Res.bind, Err.line]
      · right
        rcases w with _ | ⟨e, _ | ⟨f, _ | ⟨g, w⟩⟩⟩ <;> simp [need, numeric, orbLine, h2, k1, k2, Res.bind, Err.line]
    · right
      rcases w with _ | ⟨e, _ | ⟨f, _ | ⟨g, w⟩⟩⟩ <;> simp [need, numeric, orbLine, h1, k1, Res.bind, Err.line]

/-! ### The file -/

theorem filterMap_cons_toList {α β : Type} (f : α → Option β) (a : α) (l : List α) : (a :: l).filterMap f = (f a).toList ++ l.filterMap f := by
  rw [List.filterMap_cons]
  cases f a <;> rfl

theorem lastSaid_cons {α : Type} (f : Str → Option α) (d : α) (l : Str) (ls : List Str) : lastSaid f d (l :: ls) = lastSaid f ((f l).getD d) ls := by
  unfold lastSaid
  rw [List.reverse_cons, List.findSome?_append]
  cases ls.reverse.findSome? f with
  | some v => rfl
  | none => simp [List.findSome?_cons]; cases f l <;> rfl

theorem orbex_loop (yo : Yo) (mode : ParseMode) (ls : List Str) : ∀ (pre : List Str) (s : OSt), s.sect = sectionAt pre → s.epoch = epochAt yo pre →
    ((∀ p ∈ splitsFrom pre (body ls), Good mode p) ∧ ∃ s', orbexLoop yo mode (pre.length + 1) s ls = .ok s' ∧
      s'.out = ⟨lastSaid version s.out.version (body ls), s.out.orbits ++ (splitsFrom pre (body ls)).filterMap (orbitAt yo),
        s.out.clocks ++ (splitsFrom pre (body ls)).filterMap (clockAt yo), s.out.attitudes ++ (splitsFrom pre (body ls)).filterMap (attitudeAt yo)⟩) ∨
    ∃ e, orbexLoop yo mode (pre.length + 1) s ls = .err e ∧ ∃ p ∈ splitsFrom pre (body ls), ¬ Good mode p ∧ Err.line e = p.1.length + 1 ∧
      ∀ p' ∈ splitsFrom pre (body ls), p'.1.length < p.1.length → Good mode p' := by
  induction ls with
  | nil => intro pre s _ _; left; simp [body, splitsFrom, orbexLoop, lastSaid]
  | cons l ls ih =>
    intro pre s hs he
    by_cases hend : "%ENDORBEX".toList <+: l ∨ "%EOF".toList <+: l
    · left
      have hb : body (l :: ls) = [] := by unfold body; rw [List.takeWhile_cons]; simp only [hend, not_true, decide_false, Bool.false_eq_true, if_false]
      have hl : orbexLine yo mode (pre.length + 1) s l = .ok none := by
        unfold orbexLine
        simp only [starts_iff]
        rw [if_neg, if_pos hend]
        intro h
        rcases hend with h' | h'
        · have := List.prefix_of_prefix_length_le h h' (by decide)
          exact absurd this (by decide)
        · have := List.prefix_of_prefix_length_le h' h (by decide)
          exact absurd this (by decide)
      refine ⟨by simp [hb, splitsFrom], s, by rw [orbexLoop, hl]; rfl, by simp [hb, splitsFrom, lastSaid]⟩
    · have hb : body (l :: ls) = l :: body ls := by unfold body; rw [List.takeWhile_cons]; simp only [hend, not_false_eq_true, decide_true, if_true]
      rw [hb, splitsFrom]
      have hlen : (pre ++ [l]).length = pre.length + 1 := by simp
      have later : ∀ p ∈ splitsFrom (pre ++ [l]) (body ls), pre.length < p.1.length := by
        intro p hp
        obtain ⟨a, b, h1, _⟩ := mem_splitsFrom.mp hp
        rw [h1]; simp
      have cont : ∀ s' : OSt, s'.sect = sectionAt (pre ++ [l]) → s'.epoch = epochAt yo (pre ++ [l]) → Good mode (pre, l) →
          s'.out = ⟨(version l).getD s.out.version, s.out.orbits ++ (orbitAt yo (pre, l)).toList, s.out.clocks ++ (clockAt yo (pre, l)).toList,
            s.out.attitudes ++ (attitudeAt yo (pre, l)).toList⟩ →
          orbexLine yo mode (pre.length + 1) s l = .ok (some s') →
          ((∀ p ∈ (pre, l) :: splitsFrom (pre ++ [l]) (body ls), Good mode p) ∧ ∃ s', orbexLoop yo mode (pre.length + 1) s (l :: ls) = .ok s' ∧
            s'.out = ⟨lastSaid version s.out.version (l :: body ls), s.out.orbits ++ ((pre, l) :: splitsFrom (pre ++ [l]) (body ls)).filterMap (orbitAt yo),
              s.out.clocks ++ ((pre, l) :: splitsFrom (pre ++ [l]) (body ls)).filterMap (clockAt yo),
              s.out.attitudes ++ ((pre, l) :: splitsFrom (pre ++ [l]) (body ls)).filterMap (attitudeAt yo)⟩) ∨
          ∃ e, orbexLoop yo mode (pre.length + 1) s (l :: ls) = .err e ∧ ∃ p ∈ (pre, l) :: splitsFrom (pre ++ [l]) (body ls), ¬ Good mode p ∧
            Err.line e = p.1.length + 1 ∧ ∀ p' ∈ (pre, l) :: splitsFrom (pre ++ [l]) (body ls), p'.1.length < p.1.length → Good mode p' := by
        intro s' h1 h2 hg ho hl
        have hstep : orbexLoop yo mode (pre.length + 1) s (l :: ls) = orbexLoop yo mode ((pre ++ [l]).length + 1) s' ls := by
          rw [orbexLoop, hl, hlen]; rfl
        rw [hstep]
        rcases ih (pre ++ [l]) s' h1 h2 with ⟨g, s'', r, o⟩ | ⟨e, r, p, hp, hb, hn, hf⟩
        · left
          refine ⟨fun p hp => ?_, s'', r, ?_⟩
          · rcases List.mem_cons.mp hp with rfl | hp
            · exact hg
            · exact g p hp
          · rw [o, ho]
            simp only [filterMap_cons_toList, List.append_assoc, lastSaid_cons]
        · right
          refine ⟨e, r, p, List.mem_cons_of_mem _ hp, hb, hn, fun p' hp' hlt => ?_⟩
          rcases List.mem_cons.mp hp' with rfl | hp'
          · exact hg
          · exact hf p' hp' hlt
      by_cases hr : IsRecord l
      · obtain ⟨hm, hh, hv, _⟩ := record_line yo mode (pre.length + 1) s hr
        rcases record_does yo mode (pre.length + 1) s hr hs he with ⟨hg, hl⟩ | ⟨hg, e, hl, hn⟩
        · refine cont _ ?_ ?_ hg ?_ hl
          · show s.sect = _
            unfold sectionAt; rw [lastSaid_snoc, hm]; exact hs
          · show s.epoch = _
            unfold epochAt; rw [lastSaid_snoc, hh]; exact he
          · rw [hv]; rfl
        · right
          refine ⟨e, by rw [orbexLoop, hl]; rfl, (pre, l), by simp, hg, hn, ?_⟩
          intro p' hp' hlt
          rcases List.mem_cons.mp hp' with rfl | hp'
          · exact absurd hlt (lt_irrefl _)
          · exact absurd (later p' hp') (by dsimp only at hlt; omega)
      · have hl := other_line yo mode (pre.length + 1) s hr hend
        have nh : ∀ sec, ¬ Holds sec (pre, l) := fun sec h => hr h.1
        refine cont _ ?_ ?_ (fun h => absurd h hr) ?_ hl
        · show (marker l).getD s.sect = _
          unfold sectionAt; rw [lastSaid_snoc, hs]; rfl
        · show (header yo l).getD s.epoch = _
          unfold epochAt; rw [lastSaid_snoc, he]; rfl
        · unfold orbitAt clockAt attitudeAt
          simp only [nh, if_false, Option.toList_none, List.append_nil]

/-- Reading an ORBEX file, in either mode. It succeeds exactly if no line is bad, and then gives the records of the file in
order, each in the section of the last marker and with the epoch of the last header before it; an error names the first bad
line; and nothing panics. -/
theorem orbex_reads (yo : Yo) (mode : ParseMode) (text : Str) :
    (∀ out, readOrbex yo mode text = .ok out ↔ (∀ p ∈ splits (body (lines text)), Good mode p) ∧ out = product yo (body (lines text))) ∧
    (∀ e, readOrbex yo mode text = .err e → ∃ p ∈ splits (body (lines text)), ¬ Good mode p ∧ Err.line e = p.1.length + 1 ∧
      ∀ p' ∈ splits (body (lines text)), p'.1.length < p.1.length → Good mode p') ∧
    readOrbex yo mode text ≠ .panic := by
  have h := orbex_loop yo mode (lines text) [] ⟨.none, .num 0, ⟨[], [], [], []⟩⟩ rfl rfl
  unfold readOrbex splits
  simp only [List.length_nil, Nat.zero_add, List.nil_append] at h
  rcases h with ⟨g, s, r, o⟩ | ⟨e, r, p, hp, hb, hn, hf⟩
  · rw [r]
    refine ⟨fun out => ?_, fun e he => by simp [Res.bind] at he, by simp [Res.bind]⟩
    simp only [Res.bind, Res.ok.injEq, o]
    exact ⟨fun h => ⟨g, h.symm⟩, fun h => h.2.symm⟩
  · rw [r]
    refine ⟨fun out => ⟨fun h => by simp [Res.bind] at h, fun h => absurd (h.1 p hp) hb⟩, fun e' he => ?_, by simp [Res.bind]⟩
    simp only [Res.bind, Res.err.injEq] at he
    subst he
    exact ⟨p, hp, hb, hn, hf⟩

/-! ### Epochs -/

/-- The contract of the date library: the day of the year of a calendar date. -/
def YoOk (yo : Yo) : Prop := ∀ y m d, Valid y m d → yo y (ordinal y m d) = some ((dayNumber y m d : Int) - 2400001)

/-- An implementation that meets the contract. -/
def plainYo : Yo := fun y n =>
  if 0 ≤ y ∧ 1 ≤ n ∧ n ≤ dayNumber (y.toNat + 1) 1 1 - dayNumber y.toNat 1 1 then some ((dayNumber y.toNat 1 1 : Int) + n - 1 - 2400001) else none

theorem plainYo_ok : YoOk plainYo := by
  intro y m d h
  have h1 : Valid y 1 1 := ⟨by decide, by decide, by decide, by show 1 ≤ 31; decide⟩
  have h2 : Valid (y + 1) 1 1 := ⟨by decide, by decide, by decide, by show 1 ≤ 31; decide⟩
  have a : dayNumber y m d < dayNumber (y + 1) 1 1 := Calendar.dayNumber_mono h h2 (Or.inl (Nat.lt_succ_self y))
  have b : dayNumber y 1 1 ≤ dayNumber y m d := by
    by_cases hm : 1 < m
    · exact le_of_lt (Calendar.dayNumber_mono h1 h (Or.inr ⟨rfl, Or.inl hm⟩))
    · have hm1 : m = 1 := le_antisymm (not_lt.mp hm) h.m1
      subst hm1
      by_cases hd : 1 < d
      · exact le_of_lt (Calendar.dayNumber_mono h1 h (Or.inr ⟨rfl, Or.inr ⟨rfl, hd⟩⟩))
      · rw [le_antisymm (not_lt.mp hd) h.d1]
  unfold plainYo ordinal
  have e : (y : Int).toNat = y := Int.toNat_natCast y
  rw [if_pos ⟨Int.natCast_nonneg y, by omega, by rw [e]; omega⟩, e]
  congr 1
  push_cast [b]
  omega

/-- A header with the year, the day of the year and the seconds of the day states that instant, as Modified Julian Date. -/
theorem header_epoch {yo : Yo} (h : YoOk yo) {y m d : Nat} (hv : Valid y m d) {l a b c : Str} {more : List Str} {q : ℚ} (hl : "##".toList <+: l)
    (hw : words (l.dropWhile (· = '#')) = a :: b :: c :: more) (ha : parseInt i32Max a = some (y : Int)) (hb : parseUInt u32Max b = some (ordinal y m d))
    (hc : parseFloat c = some (.num q)) : header yo l = some (.num ((dayNumber y m d : ℚ) - 2400001 + q / 86400)) := by
  unfold header
  rw [if_pos hl, hw]
  simp only [ha, hb, hc, Option.getD_some]
  unfold yearDay
  have h1 : max (ordinal y m d) 1 = ordinal y m d := max_eq_left (Naming.Props.ordinal_bounds hv).1
  rw [h1, h y m d hv]
  simp only [addSod]
  push_cast
  rfl

/-! ### Concrete files and disagreements -/

def sampleOrbex : Str :=
  "%=ORBEX  0.09\n%%\n+EPHEMERIS/DATA\n#ORB\n## 2024 21 21600.0\n G01 1e7 2e6 3e6\n G02 1 2 3 4 5 6\n#CLK\n G01 1e-6\n## 2024 366 0\n G02 2\n#ATT\n G01 1 0 0 0\n%ENDORBEX\n bad".toList

/-- The sample is read as it stands: five records in three sections and two epochs, the last lines not looked at. -/
theorem sample_orbex : readOrbex plainYo .strict sampleOrbex =
    .ok ⟨"0.09".toList, [⟨"G01".toList, .num (60330 + 1 / 4), (.num 10000000, .num 2000000, .num 3000000), none⟩,
      ⟨"G02".toList, .num (60330 + 1 / 4), (.num 1, .num 2, .num 3), some (.num 4, .num 5, .num 6)⟩],
      [⟨"G01".toList, .num (60330 + 1 / 4), .num (1 / 1000000)⟩, ⟨"G02".toList, .num 60675, .num 2⟩],
      [⟨"G01".toList, .num 60675, (.num 1, .num 0, .num 0, .num 0)⟩]⟩ := by
  decide +kernel

example : ∃ l : Str, ∃ more, "##".toList <+: l ∧ words (l.dropWhile (· = '#')) = "2024".toList :: "21".toList :: "21600.0".toList :: more ∧
    parseInt i32Max "2024".toList = some ((2024 : Nat) : Int) ∧ parseUInt u32Max "21".toList = some (ordinal 2024 1 21) ∧
    parseFloat "21600.0".toList = some (.num 21600) ∧ Valid 2024 1 21 :=
  ⟨"## 2024 21 21600.0".toList, [], by decide, by decide, by decide +kernel, by decide +kernel, by decide +kernel, ⟨by decide, by decide, by decide, by decide⟩⟩

/-- Disagreement: errors are promised in strict mode only, but in permissive mode too a field that is not a number ends the reading. -/
theorem orbex_permissive_refuses : readOrbex plainYo .permissive "#ORB\n G01 1 2 3\n G02 ? 2 3\n".toList = .err (.number 3) ∧
    readOrbex plainYo .permissive "#ORB\n G01 1 2 3\n G02 2 3\n".toList = .ok ⟨[], [⟨"G01".toList, .num 0, (.num 1, .num 2, .num 3), none⟩], [], []⟩ := by
  decide +kernel

/-- Disagreement: a bad epoch is no error, not even in strict mode. Fields that are not numbers stand for 2000, day 1 and 0 seconds, a
day that the year does not have gives the Modified Julian Date 0, a short header leaves the epoch as it is, and records before
the first header get the date 0. -/
theorem orbex_bad_epochs :
    (readOrbex plainYo .strict "#CLK\n A 1\n## x y z\n B 1\n## 2023 366 5\n C 1\n## 2024 21 0\n D 1\n## 2025 3\n E 1\n".toList).bind
      (fun o => .ok (o.clocks.map (fun c => (c.sat, c.epoch)))) =
    .ok [("A".toList, .num 0), ("B".toList, .num 51544), ("C".toList, .num 0), ("D".toList, .num 60330), ("E".toList, .num 60330)] := by
  decide +kernel

/-- Disagreement: the blocks are not looked at. A line of any later block is a record of the section that was last open. -/
theorem orbex_blocks_ignored :
    (readOrbex plainYo .strict "+EPHEMERIS/DATA\n#CLK\n## 2024 21 0\n G01 1\n-EPHEMERIS/DATA\n+SATELLITE/ID\n G02 7\n-SATELLITE/ID\n".toList).bind
      (fun o => .ok (o.clocks.map (fun c => (c.sat, c.bias)))) = .ok [("G01".toList, .num 1), ("G02".toList, .num 7)] := by
  decide +kernel

/-- Disagreement: the headers of the published format give year, month, day, hour, minute and second. The month is taken for the day
of the year and the day for the seconds: for no date is the midnight stated the midnight read. -/
theorem orbex_calendar_headers {yo : Yo} (h : YoOk yo) {y m d : Nat} (hv : Valid y m d) {l a b c : Str} {more : List Str} (hl : "##".toList <+: l)
    (hw : words (l.dropWhile (· = '#')) = a :: b :: c :: more) (ha : parseInt i32Max a = some (y : Int)) (hb : parseUInt u32Max b = some m)
    (hc : parseFloat c = some (.num d)) : header yo l ≠ some (.num ((dayNumber y m d : ℚ) - 2400001)) := by
  have h1 : Valid y 1 m := ⟨by decide, by decide, hv.m1, by have := hv.m12; show m ≤ 31; omega⟩
  have ho : ordinal y 1 m = m := by
    unfold ordinal dayNumber
    have := hv.m1
    simp only [Nat.sub_self]
    omega
  have e := header_epoch h h1 hl hw ha (by rw [ho]; exact hb) hc
  rw [e]
  intro hh
  simp only [Option.some.injEq, F64.num.injEq] at hh
  have h2 : ((dayNumber y 1 m : Int) * 86400 + d : Int) = (dayNumber y m d : Int) * 86400 := by
    have : ((dayNumber y 1 m : ℚ) * 86400 + d : ℚ) = (dayNumber y m d : ℚ) * 86400 := by linarith
    exact_mod_cast this
  have h3 := hv.d1
  have h4 : d ≤ 31 := by
    refine le_trans hv.dl ?_
    unfold Calendar.monthLength
    split <;> (try split) <;> omega
  omega

example : ∃ l : Str, ∃ more, "##".toList <+: l ∧ words (l.dropWhile (· = '#')) = "2019".toList :: "07".toList :: "25".toList :: more ∧
    parseInt i32Max "2019".toList = some ((2019 : Nat) : Int) ∧ parseUInt u32Max "07".toList = some 7 ∧
    parseFloat "25".toList = some (.num (25 : Nat)) ∧ Valid 2019 7 25 :=
  ⟨"## 2019 07 25 00 00 0.000000000000 133".toList, ["00".toList, "00".toList, "0.000000000000".toList, "133".toList], by decide, by decide, by decide +kernel, by decide +kernel, by decide +kernel, ⟨by decide, by decide, by decide, by decide⟩⟩

end Verif.Igs.Props
