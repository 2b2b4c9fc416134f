import Verif.Cpf.Read
import Verif.Rinex.Write

/-
C70 (continued) and C71: a CPF file that is written reads back.
-/
namespace Verif.Cpf.Spec
open Verif.Text Verif.Sp3 Verif.Calendar

variable {T : Type}

/-- A word of the header. -/
def Word (s : Str) : Prop := s ≠ [] ∧ ∀ c ∈ s, isWs c = false

/-- The headers that come back. -/
structure HeaderOk (f : File T) : Prop where
  version : Word f.version
  source : Word f.source
  cospar : Word f.cospar
  target : f.target = f.cospar
  norad : Word f.norad
  frame : Word f.frame
  sic : -2 ^ 31 < f.sic ∧ f.sic < 2 ^ 31
  step : ∃ n : Nat, 0 < n ∧ n < 2 ^ 64 ∧ f.step = .num n

/-- The assumption about chrono and tempoch: days are counted by the calendar, the day is accepted, a time converts to a date and back. -/
structure Good (env : Env T) (days : Days) : Prop where
  count : ∀ y m d : Nat, Valid y m d → y < 2 ^ 18 → days.since y m d = (dayNumber y m d : Int) - 2400001
  day : ∀ mjd : Int, -678941 ≤ mjd → mjd < 10 ^ 8 → days.mjdOk mjd = true
  back : ∀ t c, env.toChrono t = some c → env.ofChrono c = some t ∧ env.dateOk c.year c.month c.day = true ∧
    c.hour < 24 ∧ c.minute < 60 ∧ c.second < 60

/-- A time of the years 0 to 2¹⁸, in whole milliseconds, outside leap seconds. -/
def StampOk (env : Env T) (t : T) : Prop :=
  ∃ c, env.toChrono t = some c ∧ c.nano % 10 ^ 6 = 0 ∧ c.nano < 10 ^ 9 ∧ ∃ y : Nat, y < 2 ^ 18 ∧ c.year = y ∧ Valid y c.month c.day

/-- Kilometres, to half a millimetre. -/
def CloseKm (a b : F64) : Prop :=
  match a with
  | .num q => ∃ q', b = .num q' ∧ |q' - q| ≤ 1 / 2 / 10 ^ 6
  | other => b = other

structure CloseEntry (a b : Entry T) : Prop where
  time : b.time = a.time
  x : CloseKm a.x b.x
  y : CloseKm a.y b.y
  z : CloseKm a.z b.z

end Verif.Cpf.Spec

namespace Verif.Cpf.Props
open Verif.Text Verif.Sp3 Verif.Sp3.Props Verif.Rinex Verif.Rinex.Props Verif.Calendar Verif.Cpf Verif.Cpf.Spec

variable {T : Type}

/-- C70, the violation: the permissive reader is documented to leave out malformed position records; one with a second of the day past
the end of the day makes it refuse the whole file. -/
theorem permissive_refuses (env : Env T) (days : Days) (ck : Bool) (text : Str) (hin : ∀ r ∈ records (lines text), InRange r)
    {rest : List Str} (hr : rest ∈ records (lines text)) {mjd : Int} {q : ℚ} {x y z : F64} (hn : Numbers rest mjd (.num q) x y z)
    (hq : 86400 ≤ q) (f : File T) : parseCpf env days ck false text ≠ .ok f := by
  intro h
  obtain ⟨os, ho, -⟩ := (read_iff_partial env days ck false text hin f.entries).1 ⟨f, h, rfl⟩
  have : ∀ (rs : List (List Str)) (os : List (Option (Entry T))), List.Forall₂ (Fate env days false) rs os → rest ∈ rs →
      ∃ o, Fate env days false rest o := by
    intro rs os h
    induction h with
    | nil => intro h; cases h
    | @cons a o rs os h1 _ ih =>
      intro h
      rcases List.mem_cons.mp h with rfl | h
      · exact ⟨o, h1⟩
      · exact ih h
  obtain ⟨o, ho⟩ := this _ _ ho hr
  cases o with
  | none => exact ho.2 ⟨_, _, _, _, _, hn⟩
  | some e =>
    obtain ⟨m', q', x', y', z', c, hn', -, hm, -⟩ := ho
    obtain ⟨-, hs, -⟩ := numbers_det hn hn'
    simp only [F64.num.injEq] at hs
    subst hs
    obtain ⟨h1, h2, h3, h4⟩ := hm.time
    have : ⌊q⌋ < 86400 := by omega
    rw [Int.floor_lt] at this
    push_cast at this
    linarith

/-! ### The lines written -/

theorem words_word {w : Str} (h : Word w) : words w = [w] := words_single h.1 h.2

theorem words_two {w : Str} (h : Word w) (t : Str) : words (w ++ ' ' :: t) = w :: words t := words_cons h.1 h.2 (by decide) t

theorem intStr_word (n : Int) : Word (intStr n) := ⟨intStr_ne n, intStr_ws n⟩

theorem natStr_word (n : Nat) : Word (natStr n) := ⟨(natStr_digits n).2.1, natStr_ws n⟩

theorem fmt_word (v : F64) : Word (fmtF64 3 v) := ⟨fmtF64_ne 3 v, fun c hc => (fmtF64_chars 3 v c hc).2⟩

theorem step_word (v : F64) : Word (stepStr v) := by
  unfold stepStr
  split
  · split
    · exact natStr_word _
    · exact ⟨by decide, by decide⟩
  · exact natStr_word _
  · exact ⟨by decide, by decide⟩

theorem words_pos (days : Days) (c : Civil) (e : Entry T) : words (posLine days c e) = ["10".toList, "1".toList,
    intStr (days.since c.year c.month c.day), fmtF64 3 (.num (mjdSod days c).2), "0".toList, fmtF64 3 (scale 1000 e.x),
    fmtF64 3 (scale 1000 e.y), fmtF64 3 (scale 1000 e.z)] := by
  have e1 : posLine days c e = "10 1".toList ++ ' ' :: (intStr (days.since c.year c.month c.day) ++ ' ' ::
      (fmtF64 3 (.num (mjdSod days c).2) ++ ' ' :: ("0".toList ++ ' ' :: (fmtF64 3 (scale 1000 e.x) ++ ' ' ::
        (fmtF64 3 (scale 1000 e.y) ++ ' ' :: fmtF64 3 (scale 1000 e.z)))))) := by
    simp only [posLine, List.append_assoc]
    rfl
  rw [e1, words_append (by decide), words_two (intStr_word _), words_two (fmt_word _), words_append (by decide),
    words_two (fmt_word _), words_two (fmt_word _), words_word (fmt_word _)]
  rfl

theorem words_h1 {f : File T} (h1 : Word f.version) (h2 : Word f.source) : words (h1Line f) =
    ["H1".toList, "CPF".toList, f.version, f.source, "2024".toList, "01".toList, "01".toList, "00".toList, "1".toList] := by
  have e1 : h1Line f = "H1 CPF".toList ++ ' ' :: (f.version ++ ' ' :: (f.source ++ ' ' :: "2024 01 01 00 1".toList)) := rfl
  rw [e1, words_append (by decide), words_two h1, words_two h2]
  rfl

theorem words_h2 {f : File T} (hc : Word f.cospar) (hn : Word f.norad) (last : List Str) (hl : words f.frame = last) : words (h2Line f) =
    "H2".toList :: f.cospar :: intStr f.sic :: f.norad :: "2024".toList :: "01".toList :: "01".toList :: "00".toList :: "00".toList ::
      "00".toList :: "2024".toList :: "01".toList :: "01".toList :: "01".toList :: "00".toList :: "00".toList :: stepStr f.step ::
      "0".toList :: last := by
  have e1 : h2Line f = "H2".toList ++ ' ' :: (f.cospar ++ ' ' :: (intStr f.sic ++ ' ' :: (f.norad ++ ' ' ::
      ("2024 01 01 00 00 00 2024 01 01 01 00 00".toList ++ ' ' :: (stepStr f.step ++ ' ' :: ("0".toList ++ ' ' :: f.frame)))))) := by
    unfold h2Line
    rw [if_neg hc.1, if_neg hn.1]
    simp only [List.append_assoc]
    rfl
  rw [e1, words_append (by decide), words_two hc, words_two (intStr_word _), words_two hn, words_append (by decide), words_two (step_word _),
    words_append (by decide), hl]
  rfl

/-! ### Times -/

theorem parseInt_intStr {n : Int} (h0 : -2 ^ 63 < n) (h1 : n < 2 ^ 63) : parseInt (2 ^ 63 - 1) (intStr n) = some n := by
  obtain ⟨d1, d2, d3⟩ := natStr_digits n.natAbs
  unfold intStr
  split
  · simp only [parseInt, parseDigits_of d1 d2, d3, Option.bind_some]
    rw [if_pos (by omega)]
    congr 1
    omega
  · rw [parseInt_of d1 d2 (by rw [d3]; omega), d3]
    congr 1
    omega

/-- The seconds printed, in milliseconds. -/
def millis (c : Civil) : Nat := roundHalfEven ((((c.hour * 3600 + c.minute * 60 + c.second : Nat) : ℚ) + (c.nano : ℚ) / 10 ^ 9) * 10 ^ 3)

theorem sod_text (days : Days) (c : Civil) : parseFloat (fmtF64 3 (.num (mjdSod days c).2)) = some (.num ((millis c : ℚ) / 10 ^ 3)) := by
  have h0 : (0 : ℚ) ≤ (mjdSod days c).2 := by unfold mjdSod; simp only; positivity
  show parseFloat (fmtFixed 3 _) = _
  rw [parseFloat_fmtFixed]
  unfold fixedValue millis
  rw [if_neg (not_lt.mpr h0), abs_of_nonneg h0, one_mul]
  rfl

theorem floor_milli (k : Nat) : ⌊(k : ℚ) / 10 ^ 3⌋ = ((k / 10 ^ 3 : ℕ) : ℤ) := by
  have := Rat.floor_intCast_div_natCast (k : ℤ) (10 ^ 3)
  push_cast at this ⊢
  exact this

theorem nano_milli (k : Nat) : ⌊((k : ℚ) / 10 ^ 3 - ((⌊(k : ℚ) / 10 ^ 3⌋ : ℤ) : ℚ)) * 10 ^ 9 + 1 / 2⌋ = ((k % 10 ^ 3 * 10 ^ 6 : ℕ) : ℤ) := by
  rw [floor_milli]
  have hk := Nat.div_add_mod k (10 ^ 3)
  have e : ((k : ℚ) / 10 ^ 3 - (((k / 10 ^ 3 : ℕ) : ℤ) : ℚ)) * 10 ^ 9 = ((k % 10 ^ 3 * 10 ^ 6 : ℕ) : ℚ) := by
    have hk' : (k : ℚ) = 10 ^ 3 * ((k / 10 ^ 3 : ℕ) : ℚ) + ((k % 10 ^ 3 : ℕ) : ℚ) := by exact_mod_cast hk.symm
    rw [Int.cast_natCast, Nat.cast_mul]
    generalize ((k / 10 ^ 3 : ℕ) : ℚ) = a at *
    generalize ((k % 10 ^ 3 : ℕ) : ℚ) = b at *
    rw [hk']
    push_cast
    ring
  rw [e, Int.floor_eq_iff, Int.cast_natCast]
  constructor <;> linarith

theorem millis_exact {c : Civil} (h : c.nano % 10 ^ 6 = 0) :
    millis c = (c.hour * 3600 + c.minute * 60 + c.second) * 10 ^ 3 + c.nano / 10 ^ 6 := by
  have e : (((c.hour * 3600 + c.minute * 60 + c.second : Nat) : ℚ) + (c.nano : ℚ) / 10 ^ 9) * 10 ^ 3 =
      (((c.hour * 3600 + c.minute * 60 + c.second) * 10 ^ 3 + c.nano / 10 ^ 6 : ℕ) : ℚ) := by
    have hn : (c.nano : ℚ) = 10 ^ 6 * ((c.nano / 10 ^ 6 : ℕ) : ℚ) := by exact_mod_cast (show c.nano = 10 ^ 6 * (c.nano / 10 ^ 6) by omega)
    rw [hn]
    push_cast
    ring
  unfold millis
  rw [e, roundHalfEven_natCast]

theorem close_coord (v : F64) : ∃ v', parseFloat (fmtF64 3 (scale 1000 v)) = some v' ∧ CloseKm v (scale (1 / 1000) v') := by
  cases v with
  | num q =>
    refine ⟨_, parseFloat_fmtFixed 3 (q * 1000), _, rfl, ?_⟩
    have := fixedValue_close 3 (q * 1000)
    rw [abs_le] at this ⊢
    norm_num at this ⊢
    constructor <;> linarith [this.1, this.2]
  | inf b => exact ⟨.inf b, by cases b <;> decide, rfl⟩
  | nan => exact ⟨.nan, by decide, rfl⟩

theorem mjd_bounds {y m d : Nat} (hv : Valid y m d) (hy : y < 2 ^ 18) :
    -678941 ≤ (dayNumber y m d : Int) - 2400001 ∧ (dayNumber y m d : Int) - 2400001 < 10 ^ 8 := by
  have h1 := daysBeforeYear_eq y
  have hm : daysOfMonths y (m - 1) ≤ 31 * 12 := by
    have : ∀ k, daysOfMonths y k ≤ 31 * k := by
      intro k
      induction k with
      | zero => exact le_refl _
      | succ k ih => unfold daysOfMonths; have := monthLength_le y (k + 1); omega
    have := this (m - 1)
    have := hv.m12
    omega
  have hd := le_trans hv.dl (monthLength_le y m)
  unfold dayNumber
  push_cast
  constructor <;> omega

/-- The record written for an entry, as the reader sees it. -/
theorem written_numbers (days : Days) (c : Civil) (e : Entry T) (h0 : -2 ^ 63 < days.since c.year c.month c.day)
    (h1 : days.since c.year c.month c.day < 2 ^ 63) : ∃ x y z, Numbers (words (posLine days c e)).tail (days.since c.year c.month c.day)
      (.num ((millis c : ℚ) / 10 ^ 3)) x y z ∧ CloseKm e.x (scale (1 / 1000) x) ∧ CloseKm e.y (scale (1 / 1000) y) ∧
      CloseKm e.z (scale (1 / 1000) z) := by
  obtain ⟨x, hx, cx⟩ := close_coord e.x
  obtain ⟨y, hy, cy⟩ := close_coord e.y
  obtain ⟨z, hz, cz⟩ := close_coord e.z
  refine ⟨x, y, z, ?_, cx, cy, cz⟩
  rw [words_pos]
  exact ⟨⟨_, rfl, parseInt_intStr h0 h1⟩, ⟨_, rfl, sod_text days c⟩, ⟨_, rfl, hx⟩, ⟨_, rfl, hy⟩, ⟨_, rfl, hz⟩⟩

theorem position_written {env : Env T} {days : Days} (good : Good env days) (ck : Bool) (no : Nat) {e : Entry T} (ht : StampOk env e.time) :
    ∃ c e', env.toChrono e.time = some c ∧ position env days ck no (words (posLine days c e)).tail = .ok e' ∧ CloseEntry e e' := by
  obtain ⟨c, hc, hn, hn9, y, hy, hyear, hv⟩ := ht
  obtain ⟨hback, hdate, hh, hmi, hs⟩ := good.back _ _ hc
  have hcount := good.count y c.month c.day hv hy
  rw [← hyear] at hcount
  obtain ⟨b0, b1⟩ := mjd_bounds hv hy
  obtain ⟨vx, vy, vz, hnum, cx, cy, cz⟩ := written_numbers days c e (by omega) (by omega)
  have hm : Moment env (days.since c.year c.month c.day) ((millis c : ℚ) / 10 ^ 3) c e.time := by
    have hex := millis_exact hn
    refine ⟨⟨y, hyear, hv, by omega⟩, ⟨?_, hh, hmi, hs⟩, ⟨?_, Or.inl hn9⟩, hdate, hback⟩
    · rw [floor_milli, hex]
      omega
    · rw [nano_milli, hex]
      omega
  have hp : (0 : ℚ) ≤ (millis c : ℚ) / 10 ^ 3 := by positivity
  refine ⟨c, ⟨e.time, scale (1 / 1000) vx, scale (1 / 1000) vy, scale (1 / 1000) vz⟩, hc, ?_, rfl, cx, cy, cz⟩
  rw [position_complete hnum, good.day _ (by omega) (by omega), if_pos rfl,
    (epoch_iff env ck (by omega) (by omega) hp e.time).2 ⟨c, hm⟩]
  rfl

theorem word_line {w : Str} (h : Word w) : ∀ c ∈ w, isWs c = false ∨ c = ' ' := fun c hc => Or.inl (h.2 c hc)

theorem posLine_ok (days : Days) (c : Civil) (e : Entry T) : LineOk (posLine days c e) := by
  apply lineOk_of
  intro x hx
  unfold posLine at hx
  simp only [List.mem_append, List.mem_cons] at hx
  rcases hx with hx | hx | rfl | (hx | hx) | hx | rfl | hx | rfl | hx
  · exact (by decide : ∀ c ∈ "10 1 ".toList, isWs c = false ∨ c = ' ') x hx
  · exact word_line (intStr_word _) x hx
  · exact Or.inr rfl
  · exact word_line (fmt_word _) x hx
  · exact (by decide : ∀ c ∈ " 0 ".toList, isWs c = false ∨ c = ' ') x hx
  · exact word_line (fmt_word _) x hx
  · exact Or.inr rfl
  · exact word_line (fmt_word _) x hx
  · exact Or.inr rfl
  · exact word_line (fmt_word _) x hx

theorem posLines_ok {env : Env T} {days : Days} {es : List (Entry T)} {ls : List Str} (h : posLines env days es = .ok ls) :
    ∀ l ∈ ls, LineOk l := by
  induction es generalizing ls with
  | nil =>
    simp only [posLines, Res.ok.injEq] at h
    subst h
    simp
  | cons e es ih =>
    simp only [posLines] at h
    cases hc : env.toChrono e.time with
    | none => rw [hc] at h; simp [Res.orPanic, Res.bind] at h
    | some c =>
      rw [hc] at h
      cases hp : posLines env days es with
      | err x => rw [hp] at h; simp [Res.orPanic, Res.bind] at h
      | panic => rw [hp] at h; simp [Res.orPanic, Res.bind] at h
      | ok ls' =>
        rw [hp] at h
        simp only [Res.orPanic, Res.bind, Res.ok.injEq] at h
        subst h
        intro l hl
        rcases List.mem_cons.mp hl with rfl | hl
        · exact posLine_ok days c e
        · exact ih hp l hl

theorem h1_ok {f : File T} (h1 : Word f.version) (h2 : Word f.source) : LineOk (h1Line f) := by
  apply lineOk_of
  intro x hx
  unfold h1Line at hx
  simp only [List.mem_append, List.mem_cons] at hx
  rcases hx with hx | hx | rfl | hx | hx
  · exact (by decide : ∀ c ∈ "H1 CPF ".toList, isWs c = false ∨ c = ' ') x hx
  · exact word_line h1 x hx
  · exact Or.inr rfl
  · exact word_line h2 x hx
  · exact (by decide : ∀ c ∈ " 2024 01 01 00 1".toList, isWs c = false ∨ c = ' ') x hx

theorem h2_ok {f : File T} (hc : Word f.cospar) (hn : Word f.norad) (hf : ∀ c ∈ f.frame, isWs c = false ∨ c = ' ') : LineOk (h2Line f) := by
  apply lineOk_of
  intro x hx
  unfold h2Line at hx
  rw [if_neg hc.1, if_neg hn.1] at hx
  simp only [List.mem_append, List.mem_cons] at hx
  rcases hx with hx | hx | rfl | hx | rfl | (hx | hx) | (hx | hx) | hx
  · exact (by decide : ∀ c ∈ "H2 ".toList, isWs c = false ∨ c = ' ') x hx
  · exact word_line hc x hx
  · exact Or.inr rfl
  · exact word_line (intStr_word _) x hx
  · exact Or.inr rfl
  · exact word_line hn x hx
  · exact (by decide : ∀ c ∈ " 2024 01 01 00 00 00 2024 01 01 01 00 00 ".toList, isWs c = false ∨ c = ' ') x hx
  · exact word_line (step_word _) x hx
  · exact (by decide : ∀ c ∈ " 0 ".toList, isWs c = false ∨ c = ' ') x hx
  · exact hf x hx

theorem entries_loop {env : Env T} {days : Days} (good : Good env days) (ck strict : Bool) (es : List (Entry T))
    (ht : ∀ e ∈ es, StampOk env e.time) : ∃ ls, posLines env days es = .ok ls ∧ (∀ l ∈ ls, LineOk l) ∧ ∀ (no : Nat) (f : File T),
      ∃ es', List.Forall₂ CloseEntry es es' ∧
        loop env days ck strict (ls ++ ["99".toList]) no f = .ok { f with entries := f.entries ++ es' } := by
  induction es with
  | nil =>
    refine ⟨[], rfl, by simp, fun no f => ⟨[], List.Forall₂.nil, ?_⟩⟩
    rw [List.nil_append, loop_end (rest := []) (by decide), List.append_nil]
  | cons e es ih =>
    obtain ⟨ls, h1, h2, h3⟩ := ih (fun x hx => ht x (by simp [hx]))
    obtain ⟨c, e', hc, hp, hclose⟩ := position_written good ck 0 (ht e (by simp))
    refine ⟨posLine days c e :: ls, ?_, ?_, ?_⟩
    · simp only [posLines, hc, Res.orPanic, Res.bind, h1]
    · intro l hl
      rcases List.mem_cons.mp hl with rfl | hl
      · exact posLine_ok days c e
      · exact h2 l hl
    · intro no f
      obtain ⟨es', hes, hl⟩ := h3 (no + 1) { f with entries := f.entries ++ [e'] }
      refine ⟨e' :: es', List.Forall₂.cons hclose hes, ?_⟩
      have hw : words (posLine days c e) = "10".toList :: (words (posLine days c e)).tail := by rw [words_pos]; rfl
      rw [List.cons_append, loop_ten hw, position_no hp]
      simp only
      rw [hl]
      simp

theorem loop_h1 {env : Env T} {days : Days} {ck strict : Bool} {l : Str} {ls rest : List Str} {no : Nat} {f : File T}
    (h : words l = "H1".toList :: rest) : loop env days ck strict (l :: ls) no f = loop env days ck strict ls (no + 1) (lineH1 f rest) := by
  rw [loop, words_trimEnd, h]
  simp only
  rw [if_pos (by trivial)]

theorem loop_h2 {env : Env T} {days : Days} {ck strict : Bool} {l : Str} {ls rest : List Str} {no : Nat} {f : File T}
    (h : words l = "H2".toList :: rest) : loop env days ck strict (l :: ls) no f = loop env days ck strict ls (no + 1) (lineH2 f rest) := by
  rw [loop, words_trimEnd, h]
  simp only
  rw [if_neg (by decide), if_pos (by trivial)]

theorem parse_natStr (n : Nat) : parseFloat (natStr n) = some (.num n) := by
  obtain ⟨d1, d2, d3⟩ := natStr_digits n
  obtain ⟨c, t, ht, hc⟩ := digits_head d1 d2
  have hu := parseUFloat_int d1 d2
  rw [d3] at hu
  rw [ht] at hu ⊢
  refine parseFloat_pos hu (fun c' h => ?_)
  simp only [List.head?_cons, Option.some.injEq] at h
  subst h
  constructor <;> rintro rfl <;> simp at hc

theorem i32_getD {n : Int} (h : -2 ^ 31 < n ∧ n < 2 ^ 31) : (i32 (intStr n)).getD 0 = n := by
  rw [i32_intStr h.1 h.2]
  rfl

theorem read_headers {env : Env T} {days : Days} (ck strict : Bool) {f : File T} (hc : Word f.cospar) (hn : Word f.norad)
    (hv : Word f.version) (hs : Word f.source) (hsic : -2 ^ 31 < f.sic ∧ f.sic < 2 ^ 31) {last : List Str} (hl : words f.frame = last)
    (ls : List Str) : loop env days ck strict (h1Line f :: h2Line f :: ls) 0 {} =
      loop env days ck strict ls 2 ⟨f.source, f.version, f.cospar, f.cospar, f.sic, f.norad, ("0".toList :: last).getLast (by simp),
        (parseFloat (stepStr f.step)).getD (.num 0), []⟩ := by
  rw [loop_h1 (words_h1 hv hs), loop_h2 (words_h2 hc hn last hl)]
  congr 1
  simp only [lineH1, lineH2]
  congr 1
  exact i32_getD hsic

/-- What comes back of any file whose header fields are words: the target is the COSPAR number, the step is the one printed, and the frame is
its last word, or `0`. -/
theorem write_read_all {env : Env T} {days : Days} (good : Good env days) (ck strict : Bool) {f : File T} (hc : Word f.cospar)
    (hn : Word f.norad) (hv : Word f.version) (hs : Word f.source) (hsic : -2 ^ 31 < f.sic ∧ f.sic < 2 ^ 31)
    (hf : ∀ c ∈ f.frame, isWs c = false ∨ c = ' ') (ht : ∀ e ∈ f.entries, StampOk env e.time) :
    ∃ text es', writeCpf env days f = .ok text ∧ List.Forall₂ CloseEntry f.entries es' ∧ parseCpf env days ck strict text =
      .ok { f with target := f.cospar, step := (parseFloat (stepStr f.step)).getD (.num 0), frame := (words f.frame).getLastD "0".toList, entries := es' } := by
  obtain ⟨ls, h1, h2, h3⟩ := entries_loop good ck strict f.entries ht
  obtain ⟨es', hes, hl⟩ := h3 2 ⟨f.source, f.version, f.cospar, f.cospar, f.sic, f.norad, ("0".toList :: words f.frame).getLast (by simp),
    (parseFloat (stepStr f.step)).getD (.num 0), []⟩
  refine ⟨unlines (h1Line f :: h2Line f :: (ls ++ ["99".toList])), es', by simp only [writeCpf, h1, Res.bind], hes, ?_⟩
  unfold parseCpf
  rw [lines_unlines, read_headers ck strict hc hn hv hs hsic rfl, hl]
  · rw [List.getLast_eq_getLastD]
    rfl
  · intro l hl
    simp only [List.mem_cons, List.mem_append, List.not_mem_nil, or_false] at hl
    rcases hl with rfl | rfl | hl | rfl
    · exact h1_ok hv hs
    · exact h2_ok hc hn hf
    · exact h2 l hl
    · exact lineOk_of (by decide)

/-- C71: a file that is written reads back, in both modes: the header, the times, and the positions to half a millimetre. -/
theorem write_read_partial {env : Env T} {days : Days} (good : Good env days) (ck strict : Bool) {f : File T} (hh : HeaderOk f)
    (ht : ∀ e ∈ f.entries, StampOk env e.time) :
    ∃ text f', writeCpf env days f = .ok text ∧ parseCpf env days ck strict text = .ok f' ∧
      f' = { f with entries := f'.entries } ∧ List.Forall₂ CloseEntry f.entries f'.entries := by
  obtain ⟨n, n0, n1, hstep⟩ := hh.step
  have hst : (parseFloat (stepStr f.step)).getD (.num 0) = f.step := by
    have : stepStr f.step = natStr n := by
      rw [hstep]
      unfold stepStr
      simp only
      rw [if_pos (by exact_mod_cast n0)]
      congr 1
      show min ⌊(n : ℚ)⌋.toNat (2 ^ 64 - 1) = n
      rw [Int.floor_natCast]
      omega
    rw [this, parse_natStr, hstep]
    rfl
  obtain ⟨text, es', h1, h2, h3⟩ := write_read_all good ck strict hh.cospar hh.norad hh.version hh.source hh.sic (word_line hh.frame) ht
  refine ⟨text, { f with entries := es' }, h1, ?_, rfl, h2⟩
  rw [h3, hst, words_word hh.frame, hh.target.symm]
  rfl

/-- The days of the calendar. -/
def calendarDays : Days := ⟨fun _ => true, fun y m d => (dayNumber y.toNat m d : Int) - 2400001⟩

theorem plain_good : Good plainEnv calendarDays where
  count := fun _ _ _ _ _ => rfl
  day := fun _ _ _ => rfl
  back := fun t c h => ⟨plainEnv_good.back t c h, (plainEnv_good.date t c h).1, (plainEnv_good.time t c h)⟩

example : ∃ text f', writeCpf plainEnv calendarDays ⟨"SGF".toList, "2".toList, "7603901".toList, "7603901".toList, 1155, "8820".toList,
      "1".toList, .num 300, [⟨⟨2024, 2, 28, 23, 59, 59, 999000000⟩, .num (1 / 3), .num (-7000), .nan⟩]⟩ = .ok text ∧
    parseCpf plainEnv calendarDays true true text = .ok f' ∧ f'.entries.length = 1 ∧ f'.step = .num 300 := by
  obtain ⟨text, f', h1, h2, h3, h4⟩ := write_read_partial (f := ⟨"SGF".toList, "2".toList, "7603901".toList, "7603901".toList, 1155,
    "8820".toList, "1".toList, .num 300, [⟨⟨2024, 2, 28, 23, 59, 59, 999000000⟩, .num (1 / 3), .num (-7000), .nan⟩]⟩) plain_good true true
    ⟨⟨by decide, by decide⟩, ⟨by decide, by decide⟩, ⟨by decide, by decide⟩, rfl, ⟨by decide, by decide⟩, ⟨by decide, by decide⟩, by decide,
      300, by decide, by decide, rfl⟩ (by
        intro e he
        simp only [List.mem_cons, List.not_mem_nil, or_false] at he
        subst he
        exact ⟨_, rfl, by decide, by decide, 2024, by decide, rfl, by decide, by decide, by decide, by decide⟩)
  refine ⟨text, f', h1, h2, h4.length_eq.symm, by rw [h3]⟩

/-! ### What does not come back -/

/-- C71, the violation: a step below one second comes back as zero, one that is not positive as sixty, any other without its fraction. -/
theorem step_lost {env : Env T} {days : Days} (good : Good env days) (ck strict : Bool) {f : File T} (hc : Word f.cospar)
    (hn : Word f.norad) (hv : Word f.version) (hs : Word f.source) (hsic : -2 ^ 31 < f.sic ∧ f.sic < 2 ^ 31) (hf : Word f.frame)
    (ht : ∀ e ∈ f.entries, StampOk env e.time) {q : ℚ} (hq : f.step = .num q) (hbig : q < 2 ^ 64) :
    ∃ text f', writeCpf env days f = .ok text ∧ parseCpf env days ck strict text = .ok f' ∧
      f'.step = .num (if 0 < q then (⌊q⌋ : ℚ) else 60) := by
  obtain ⟨text, es', h1, -, h3⟩ := write_read_all good ck strict hc hn hv hs hsic (word_line hf) ht
  refine ⟨text, _, h1, h3, ?_⟩
  show (parseFloat (stepStr f.step)).getD (.num 0) = _
  rw [hq]
  unfold stepStr
  simp only
  split
  · rename_i h0
    have hfl : 0 ≤ ⌊q⌋ := Int.floor_nonneg.mpr h0.le
    have hlt : ⌊q⌋ < 2 ^ 64 := by rw [Int.floor_lt]; exact_mod_cast hbig
    rw [parse_natStr]
    show F64.num ((min ⌊q⌋.toNat (2 ^ 64 - 1) : ℕ) : ℚ) = _
    congr 1
    rw [show ((⌊q⌋ : ℤ) : ℚ) = ((⌊q⌋.toNat : ℤ) : ℚ) by rw [Int.toNat_of_nonneg hfl]]
    rw [Nat.min_eq_left (by omega)]
    norm_cast
  · decide +kernel

/-- C71, the violation: an empty reference frame comes back as `0`, and one of several words as its last word. -/
theorem frame_lost {env : Env T} {days : Days} (good : Good env days) (ck strict : Bool) {f : File T} (hc : Word f.cospar)
    (hn : Word f.norad) (hv : Word f.version) (hs : Word f.source) (hsic : -2 ^ 31 < f.sic ∧ f.sic < 2 ^ 31)
    (hf : ∀ c ∈ f.frame, isWs c = false ∨ c = ' ') (ht : ∀ e ∈ f.entries, StampOk env e.time) :
    ∃ text f', writeCpf env days f = .ok text ∧ parseCpf env days ck strict text = .ok f' ∧
      f'.frame = ((words f.frame).getLast?.getD "0".toList) := by
  obtain ⟨text, es', h1, -, h3⟩ := write_read_all good ck strict hc hn hv hs hsic hf ht
  refine ⟨text, _, h1, h3, ?_⟩
  show (words f.frame).getLastD _ = _
  rw [List.getLastD_eq_getLast?]

/-- C71, the violation: a time in the last half millisecond of a day is written as second 86400, and the file cannot be read in either mode. -/
theorem late_time_unreadable {env : Env T} {days : Days} (good : Good env days) (ck strict : Bool) {f : File T} (hc : Word f.cospar)
    (hn : Word f.norad) (hv : Word f.version) (hs : Word f.source) (hsic : -2 ^ 31 < f.sic ∧ f.sic < 2 ^ 31)
    (hf : ∀ c ∈ f.frame, isWs c = false ∨ c = ' ') {e : Entry T} {es : List (Entry T)} (he : f.entries = e :: es) {c : Civil}
    (ht : env.toChrono e.time = some c) {y : Nat} (hy : y < 2 ^ 18) (hyear : c.year = y) (hval : Valid y c.month c.day)
    (hlate : c.hour = 23 ∧ c.minute = 59 ∧ c.second = 59 ∧ 999500000 < c.nano) {text : Str} (hw : writeCpf env days f = .ok text) (f' : File T) :
    parseCpf env days ck strict text ≠ .ok f' := by
  unfold writeCpf at hw
  rw [he] at hw
  simp only [posLines, ht, Res.orPanic, Res.bind] at hw
  cases hp : posLines env days es with
  | err x => rw [hp] at hw; simp at hw
  | panic => rw [hp] at hw; simp at hw
  | ok ls =>
    rw [hp] at hw
    simp only [Res.ok.injEq] at hw
    subst hw
    have hcount := good.count y c.month c.day hval hy
    rw [← hyear] at hcount
    obtain ⟨b0, b1⟩ := mjd_bounds hval hy
    obtain ⟨vx, vy, vz, hnum, -⟩ := written_numbers days c e (by omega) (by omega)
    have hq : (0 : ℚ) ≤ (millis c : ℚ) / 10 ^ 3 := by positivity
    have hbig : 86400000 ≤ millis c := by
      have h := roundHalfEven_spec ((((c.hour * 3600 + c.minute * 60 + c.second : Nat) : ℚ) + (c.nano : ℚ) / 10 ^ 9) * 10 ^ 3) (by positivity)
      obtain ⟨h1, h2, h3, h4⟩ := hlate
      have h4' : (999500000 : ℚ) < c.nano := by exact_mod_cast h4
      rw [h1, h2, h3] at h
      have hm : millis c = roundHalfEven ((((23 * 3600 + 59 * 60 + 59 : Nat) : ℚ) + (c.nano : ℚ) / 10 ^ 9) * 10 ^ 3) := by
        unfold millis; rw [h1, h2, h3]
      rw [← hm] at h
      have : (86399999 : ℚ) < millis c := by
        rw [abs_le] at h
        push_cast at h
        linarith [h.1]
      have : 86399999 < millis c := by exact_mod_cast this
      omega
    unfold parseCpf
    rw [lines_unlines, read_headers ck strict hc hn hv hs hsic rfl, List.cons_append,
      loop_ten (rest := (words (posLine days c e)).tail) (by rw [words_pos]; rfl), position_complete hnum, good.day _ (by omega) (by omega),
      if_pos rfl]
    · have hno : ∀ t, buildEpoch env ck (days.since c.year c.month c.day) (.num ((millis c : ℚ) / 10 ^ 3)) ≠ .ok t := by
        intro t hb
        obtain ⟨c', hm⟩ := (epoch_iff env ck (by omega) (by omega) hq t).1 hb
        obtain ⟨h1, h2, h3, h4⟩ := hm.time
        rw [floor_milli] at h1
        omega
      cases hb : buildEpoch env ck (days.since c.year c.month c.day) (.num ((millis c : ℚ) / 10 ^ 3)) with
      | ok t => exact absurd hb (hno t)
      | panic => simp [Res.bind]
      | err x =>
        cases x with
        | missing n w => exact absurd hb build_not_missing
        | mjd => simp [Res.bind]
        | date => simp [Res.bind]
        | utc => simp [Res.bind]
    · intro l hl
      simp only [List.mem_cons, List.mem_append, List.not_mem_nil, or_false] at hl
      rcases hl with rfl | rfl | (rfl | hl) | rfl
      · exact h1_ok hv hs
      · exact h2_ok hc hn hf
      · exact posLine_ok days c e
      · exact posLines_ok hp l hl
      · exact lineOk_of (by decide)

/-- Both cases occur. -/
example : (match parseCpf plainEnv calendarDays true false "10 1 60310 90000.0 0 1 2 3".toList with | .err .date => true | _ => false) = true ∧
    (match (writeCpf plainEnv calendarDays ⟨"S".toList, "2".toList, "7".toList, "7".toList, 1, "8".toList, "1".toList, .num 300,
      [⟨⟨2024, 2, 28, 23, 59, 59, 999600000⟩, .num 1, .num 2, .num 3⟩]⟩).bind (parseCpf plainEnv calendarDays true false) with
      | .err .date => true | _ => false) = true := by
  decide +kernel

end Verif.Cpf.Props
