import Verif.Sp3.Read

/-
Property C68: an SP3 record that is written reads back.
-/
namespace Verif.Sp3.Props
open Verif.Text Verif.Sp3

variable {T : Type}

/-! ### Specification -/

/-- The assumption about chrono and tempoch: a time given back as a date is a date chrono accepts, and converts to the same
time. -/
structure Good (env : Env T) : Prop where
  year : ∀ t c, env.toChrono t = some c → -2 ^ 31 < c.year ∧ c.year < 2 ^ 31
  date : ∀ t c, env.toChrono t = some c → env.dateOk c.year c.month c.day = true ∧ c.month ≤ 12 ∧ c.day ≤ 31
  time : ∀ t c, env.toChrono t = some c → c.hour < 24 ∧ c.minute < 60 ∧ c.second < 60
  back : ∀ t c, env.toChrono t = some c → env.ofChrono c = some t

/-- A header line that comes back: no line end inside, not an epoch line, not `EOF`. -/
def HeaderOk (l : Str) : Prop := '\n' ∉ l ∧ l.getLast? ≠ some '\r' ∧ ¬ Star l ∧ l ≠ "EOF".toList

/-- A satellite name of the format: at most three ASCII characters. -/
def SatOk (s : Str) : Prop := isAscii s ∧ s.length ≤ 3 ∧ Tight s ∧ '\n' ∉ s

/-- The number read is the number written, to half a unit of the sixth decimal. -/
def CloseF (a b : F64) : Prop :=
  match a with
  | .num q => ∃ q', b = .num q' ∧ |q' - q| ≤ 1 / 2 / 10 ^ 6
  | other => b = other

structure ClosePos (a b : Pos) : Prop where
  sat : b.sat = a.sat
  x : CloseF a.x b.x
  y : CloseF a.y b.y
  z : CloseF a.z b.z
  clock : CloseF a.clock b.clock

structure CloseEpoch (a b : Epoch T) : Prop where
  time : b.time = a.time
  positions : List.Forall₂ ClosePos a.positions b.positions

/-- The times that are written exactly: whole multiples of ten nanoseconds, not inside a leap second. -/
def TimeOk (env : Env T) (t : T) : Prop := ∃ c, env.toChrono t = some c ∧ c.nano % 10 = 0 ∧ c.nano < 10 ^ 9

/-! ### Lines -/

theorem words_replicate (n : Nat) (t : Str) : words (List.replicate n ' ' ++ t) = words t := by
  induction n with
  | zero => rfl
  | succ n ih => rw [List.replicate_succ, List.cons_append, words_ws (by decide), ih]

theorem words_pad {w : Str} (hne : w ≠ []) (h : ∀ c ∈ w, isWs c = false) (n : Nat) (t : Str) :
    words (padLeft ' ' n w ++ ' ' :: t) = w :: words t := by
  unfold padLeft
  rw [List.append_assoc, words_replicate, words_cons hne h (by decide)]

theorem words_pad_last {w : Str} (hne : w ≠ []) (h : ∀ c ∈ w, isWs c = false) (n : Nat) : words (padLeft ' ' n w) = [w] := by
  unfold padLeft
  rw [words_replicate, words_single hne h]

theorem natStr_ws (n : Nat) : ∀ c ∈ natStr n, isWs c = false :=
  fun c hc => isDigit_not_ws (List.all_eq_true.mp (natStr_digits n).1 c hc)

theorem intStr_ws (n : Int) : ∀ c ∈ intStr n, isWs c = false := by
  intro c hc
  unfold intStr at hc
  split at hc
  · rcases List.mem_cons.mp hc with rfl | hc
    · decide
    · exact natStr_ws _ c hc
  · exact natStr_ws _ c hc

theorem intStr_ne (n : Int) : intStr n ≠ [] := by
  unfold intStr
  split
  · simp
  · exact (natStr_digits _).2.1

theorem i32_intStr {n : Int} (h0 : -2 ^ 31 < n) (h1 : n < 2 ^ 31) : i32 (intStr n) = some n := by
  obtain ⟨d1, d2, d3⟩ := natStr_digits n.natAbs
  unfold i32 intStr
  split
  · simp only [parseInt, parseDigits_of d1 d2, d3, Option.bind_some]
    rw [if_pos (by omega)]
    congr 1
    omega
  · rw [parseInt_of d1 d2 (by rw [d3]; omega), d3]
    congr 1
    omega

theorem u32_natStr {n : Nat} (h : n < 2 ^ 32) : u32 (natStr n) = some n := by
  obtain ⟨d1, d2, d3⟩ := natStr_digits n
  unfold u32
  rw [parseUInt_of d1 d2 (by rw [d3]; omega), d3]

theorem fmtFixed_ne (p : Nat) (q : ℚ) : fmtFixed p q ≠ [] := by
  intro h
  have := parseFloat_fmtFixed p q
  rw [h, show parseFloat [] = none by decide] at this
  exact absurd this (by simp)

/-- The seconds printed, in units of ten nanoseconds. -/
def centis (c : Civil) : Nat := roundHalfEven (((c.second : ℚ) + (c.nano : ℚ) / 10 ^ 9) * 10 ^ 8)

theorem seconds_text (c : Civil) : parseFloat (fmtFixed 8 ((c.second : ℚ) + (c.nano : ℚ) / 10 ^ 9)) = some (.num ((centis c : ℚ) / 10 ^ 8)) := by
  have h0 : (0 : ℚ) ≤ (c.second : ℚ) + (c.nano : ℚ) / 10 ^ 9 := by positivity
  rw [parseFloat_fmtFixed]
  unfold fixedValue centis
  rw [if_neg (not_lt.mpr h0), abs_of_nonneg h0, one_mul]

theorem asU32_div {k : Nat} (h : k < 2 ^ 32 * 10 ^ 8) : asU32 (.num ((k : ℚ) / 10 ^ 8)) = k / 10 ^ 8 := by
  unfold asU32
  have : ⌊(k : ℚ) / 10 ^ 8⌋ = ((k / 10 ^ 8 : ℕ) : ℤ) := by
    have := Rat.floor_intCast_div_natCast (k : ℤ) (10 ^ 8)
    push_cast at this ⊢
    exact this
  simp only [this, Int.toNat_natCast]
  omega

theorem nanosOf_div {k : Nat} : nanosOf (.num ((k : ℚ) / 10 ^ 8)) (k / 10 ^ 8) = k % 10 ^ 8 * 10 := by
  unfold nanosOf
  simp only
  have hk := Nat.div_add_mod k (10 ^ 8)
  have : ((k : ℚ) / 10 ^ 8 - (k / 10 ^ 8 : ℕ)) * 10 ^ 9 = ((k % 10 ^ 8 * 10 : ℕ) : ℚ) := by
    have hk' : (k : ℚ) = 10 ^ 8 * ((k / 10 ^ 8 : ℕ) : ℚ) + ((k % 10 ^ 8 : ℕ) : ℚ) := by exact_mod_cast hk.symm
    push_cast
    generalize ((k / 10 ^ 8 : ℕ) : ℚ) = a at *
    generalize ((k % 10 ^ 8 : ℕ) : ℚ) = b at *
    rw [hk']
    ring
  rw [this, roundHalfUp_natCast]
  have := Nat.mod_lt k (show 0 < 10 ^ 8 by norm_num)
  omega

/-- The epoch line read back: the seconds printed, or the error if they are sixty. -/
theorem epoch_written {env : Env T} {c : Civil} (y0 : -2 ^ 31 < c.year) (y1 : c.year < 2 ^ 31) (hm : c.month < 2 ^ 32) (hd : c.day < 2 ^ 32)
    (hh : c.hour < 24) (hi : c.minute < 60) (hs : c.second < 60) (hn : c.nano < 2 * 10 ^ 9) (hdate : env.dateOk c.year c.month c.day = true)
    (no : Nat) :
    batchEpoch env (epochLine c) no = if centis c < 60 * 10 ^ 8 then
        (Res.ofOption (.utc no) (env.ofChrono { c with second := centis c / 10 ^ 8, nano := centis c % 10 ^ 8 * 10 })).bind (fun t => .ok ⟨t, []⟩)
      else .err (.date no) := by
  have hw : words ((stripPrefix ['*'] (epochLine c)).getD (epochLine c)) = [intStr c.year, natStr c.month, natStr c.day, natStr c.hour,
      natStr c.minute, fmtFixed 8 ((c.second : ℚ) + (c.nano : ℚ) / 10 ^ 9)] := by
    have e : epochLine c = '*' :: ' ' :: ' ' :: (padLeft ' ' 4 (intStr c.year) ++ ' ' :: (padLeft ' ' 2 (natStr c.month) ++ ' ' :: (padLeft ' ' 2 (natStr c.day) ++ ' ' ::
      (padLeft ' ' 2 (natStr c.hour) ++ ' ' :: (padLeft ' ' 2 (natStr c.minute) ++ ' ' ::
        padLeft ' ' 11 (fmtFixed 8 ((c.second : ℚ) + (c.nano : ℚ) / 10 ^ 9))))))) := rfl
    rw [e]
    simp only [stripPrefix, if_true, Option.getD_some]
    have n := fun k => (natStr_digits k).2.1
    rw [words_ws (by decide), words_ws (by decide), words_pad (intStr_ne _) (intStr_ws _), words_pad (n _) (natStr_ws _), words_pad (n _) (natStr_ws _),
      words_pad (n _) (natStr_ws _), words_pad (n _) (natStr_ws _), words_pad_last (fmtFixed_ne _ _) (fun c hc => (fmtFixed_chars _ _ c hc).2)]
  unfold batchEpoch
  rw [hw]
  simp only [field, i32_intStr y0 y1, u32_natStr hm, u32_natStr hd, u32_natStr (show c.hour < 2 ^ 32 by omega),
    u32_natStr (show c.minute < 2 ^ 32 by omega), seconds_text, Res.ofOption, Res.bind]
  have hk : centis c ≤ 62 * 10 ^ 8 := by
    have h0 : (0 : ℚ) ≤ ((c.second : ℚ) + (c.nano : ℚ) / 10 ^ 9) * 10 ^ 8 := by positivity
    have hr := (abs_le.mp (roundHalfEven_spec _ h0)).2
    have h1 : (c.second : ℚ) ≤ 59 := by exact_mod_cast (show c.second ≤ 59 by omega)
    have h2 : (c.nano : ℚ) ≤ 2 * 10 ^ 9 := by exact_mod_cast hn.le
    have h3 : (c.nano : ℚ) / 10 ^ 9 ≤ 2 := by rw [div_le_iff₀ (by positivity)]; linarith
    have : ((centis c : ℕ) : ℚ) ≤ ((62 * 10 ^ 8 : ℕ) : ℚ) := by
      unfold centis
      push_cast
      linarith
    exact_mod_cast this
  unfold civilToUtc
  dsimp only
  rw [asU32_div (by omega), nanosOf_div, hdate]
  have hmod := Nat.mod_lt (centis c) (show 0 < 10 ^ 8 by norm_num)
  by_cases h60 : centis c < 60 * 10 ^ 8
  · have ht : timeOk c.hour c.minute (centis c / 10 ^ 8) (centis c % 10 ^ 8 * 10) = true := by
      unfold timeOk
      simp only [Bool.and_eq_true, Bool.or_eq_true, decide_eq_true_eq]
      omega
    rw [ht, if_pos h60]
    simp only [Bool.and_self, if_true]
    rfl
  · have ht : timeOk c.hour c.minute (centis c / 10 ^ 8) (centis c % 10 ^ 8 * 10) = false := by
      unfold timeOk
      rw [decide_eq_false (show ¬ (centis c / 10 ^ 8 < 60) by omega)]
      simp only [Bool.and_false, Bool.false_and]
    rw [ht, if_neg h60]
    simp

/-- Multiples of ten nanoseconds are exact. -/
theorem centis_exact {c : Civil} (h : c.nano % 10 = 0) (h1 : c.nano < 10 ^ 9) :
    centis c / 10 ^ 8 = c.second ∧ centis c % 10 ^ 8 * 10 = c.nano := by
  have e : ((c.second : ℚ) + (c.nano : ℚ) / 10 ^ 9) * 10 ^ 8 = ((c.second * 10 ^ 8 + c.nano / 10 : ℕ) : ℚ) := by
    have hn : (c.nano : ℚ) = 10 * ((c.nano / 10 : ℕ) : ℚ) := by exact_mod_cast (show c.nano = 10 * (c.nano / 10) by omega)
    push_cast
    rw [hn]
    push_cast
    ring
  unfold centis
  rw [e, roundHalfEven_natCast]
  omega

theorem closeF_parse (v : F64) : ∃ v', parseFloat (fmtF64 6 v) = some v' ∧ CloseF v v' := by
  cases v with
  | num q => exact ⟨_, parseFloat_fmtFixed 6 q, _, rfl, fixedValue_close 6 q⟩
  | inf b => cases b <;> exact ⟨_, by decide, rfl⟩
  | nan => exact ⟨_, by decide, rfl⟩

theorem fmtF64_chars (p : Nat) (v : F64) : ∀ c ∈ fmtF64 p v, c.toNat < 128 ∧ isWs c = false := by
  cases v with
  | num q => exact fmtFixed_chars p q
  | inf b =>
    cases b
    · exact (by decide : ∀ c ∈ "inf".toList, c.toNat < 128 ∧ isWs c = false)
    · exact (by decide : ∀ c ∈ "-inf".toList, c.toNat < 128 ∧ isWs c = false)
  | nan => exact (by decide : ∀ c ∈ "NaN".toList, c.toNat < 128 ∧ isWs c = false)

theorem fmtF64_ne (p : Nat) (v : F64) : fmtF64 p v ≠ [] := by
  cases v with
  | num q => exact fmtFixed_ne p q
  | inf b => cases b <;> simp [fmtF64]
  | nan => simp [fmtF64]

theorem posLine_ascii {p : Pos} (h : SatOk p.sat) : isAscii (posLine p) := by
  have f : ∀ v, isAscii (padLeft ' ' 14 (fmtF64 6 v)) := fun v => padLeft_ascii (fun c hc => (fmtF64_chars 6 v c hc).1) _ (by decide) _
  unfold posLine
  simp only [isAscii_cons, isAscii_append]
  exact ⟨by decide, padRight_ascii h.1 _, by decide, f _, by decide, f _, by decide, f _, by decide, f _⟩

theorem pos_written {p : Pos} (h : SatOk p.sat) (no : Nat) : ∃ p', batchPos (posLine p) no = .ok p' ∧ ClosePos p p' := by
  have hlen : (padRight 3 p.sat).length = 3 := by rw [padRight_length]; have := h.2.1; omega
  have hasc := posLine_ascii h
  have hs : slice (posLine p) 1 4 = some (padRight 3 p.sat) := by
    have := slice_mid (a := ['P']) (b := padRight 3 p.sat) (c := ' ' :: (padLeft ' ' 14 (fmtF64 6 p.x) ++ ' ' :: (padLeft ' ' 14 (fmtF64 6 p.y) ++ ' ' ::
      (padLeft ' ' 14 (fmtF64 6 p.z) ++ ' ' :: padLeft ' ' 14 (fmtF64 6 p.clock))))) (i := 1) (j := 4) hasc rfl (by omega)
    exact this
  have hd : dropB (posLine p) 4 = some (' ' :: (padLeft ' ' 14 (fmtF64 6 p.x) ++ ' ' :: (padLeft ' ' 14 (fmtF64 6 p.y) ++ ' ' ::
      (padLeft ' ' 14 (fmtF64 6 p.z) ++ ' ' :: padLeft ' ' 14 (fmtF64 6 p.clock))))) := by
    have e : posLine p = ('P' :: padRight 3 p.sat) ++ (' ' :: (padLeft ' ' 14 (fmtF64 6 p.x) ++ ' ' :: (padLeft ' ' 14 (fmtF64 6 p.y) ++ ' ' ::
      (padLeft ' ' 14 (fmtF64 6 p.z) ++ ' ' :: padLeft ' ' 14 (fmtF64 6 p.clock))))) := rfl
    have hb : blen ('P' :: padRight 3 p.sat) = 4 := by
      rw [blen_ascii (isAscii_cons.mpr ⟨by decide, padRight_ascii h.1 _⟩), List.length_cons, hlen]
    rw [e]
    have := dropB_append ('P' :: padRight 3 p.sat) (' ' :: (padLeft ' ' 14 (fmtF64 6 p.x) ++ ' ' :: (padLeft ' ' 14 (fmtF64 6 p.y) ++ ' ' ::
      (padLeft ' ' 14 (fmtF64 6 p.z) ++ ' ' :: padLeft ' ' 14 (fmtF64 6 p.clock)))))
    rw [hb] at this
    exact this
  obtain ⟨x, hx, cx⟩ := closeF_parse p.x
  obtain ⟨y, hy, cy⟩ := closeF_parse p.y
  obtain ⟨z, hz, cz⟩ := closeF_parse p.z
  obtain ⟨c, hc, cc⟩ := closeF_parse p.clock
  have n := fun v => fmtF64_ne 6 v
  have f := fun v => fun c hc => (fmtF64_chars 6 v c hc).2
  refine ⟨⟨p.sat, x, y, z, c⟩, ?_, ⟨rfl, cx, cy, cz, cc⟩⟩
  unfold batchPos
  rw [hs, hd]
  simp only [Res.ofOption, Res.orPanic, Res.bind]
  rw [words_ws (by decide), words_pad (n _) (f _), words_pad (n _) (f _), words_pad (n _) (f _), words_pad_last (n _) (f _)]
  simp only [field, hx, hy, hz, hc, Res.ofOption, Res.bind]
  rw [trim_padRight h.2.2.1]

/-! ### Text -/

theorem rawLinesGo_line {l : Str} (h : '\n' ∉ l) (t cur : Str) : rawLinesGo (l ++ '\n' :: t) cur = (cur.reverse ++ l ++ ['\n']) :: rawLinesGo t [] := by
  induction l generalizing cur with
  | nil => simp [rawLinesGo]
  | cons c l ih =>
    simp only [List.mem_cons, not_or] at h
    rw [List.cons_append, rawLinesGo, if_neg (Ne.symm h.1), ih h.2]
    simp

theorem rawLines_unlines {ls : List Str} (h : ∀ l ∈ ls, '\n' ∉ l) : rawLines (unlines ls) = ls.map (fun l => l ++ ['\n']) := by
  induction ls with
  | nil => rfl
  | cons l ls ih =>
    have := ih (fun l' hl' => h l' (List.mem_cons_of_mem _ hl'))
    unfold rawLines at this ⊢
    rw [unlines_cons, rawLinesGo_line (h l List.mem_cons_self), this]
    rfl

theorem trimEol_line {l : Str} (h : '\n' ∉ l) (hr : l.getLast? ≠ some '\r') : trimEol (l ++ ['\n']) = l := by
  unfold trimEol
  rw [List.reverse_append, List.reverse_singleton, List.singleton_append, List.dropWhile_cons_of_pos (by decide)]
  cases hl : l.reverse with
  | nil => rw [List.reverse_eq_nil_iff] at hl; subst hl; rfl
  | cons c t =>
    have hlast : l.getLast? = some c := by rw [← List.head?_reverse, hl]; rfl
    have hmem : c ∈ l := List.mem_of_getLast? hlast
    rw [List.dropWhile_cons_of_neg, ← hl, List.reverse_reverse]
    simp only [decide_eq_true_eq, not_or]
    refine ⟨?_, ?_⟩
    · rintro rfl; exact hr hlast
    · rintro rfl; exact h hmem

/-- A line of the body: no line end in it. -/
def Plain (l : Str) : Prop := '\n' ∉ l ∧ l.getLast? ≠ some '\r'

theorem plain_of {l : Str} (h : ∀ c ∈ l, isWs c = false ∨ c = ' ') : Plain l := by
  constructor
  · intro hc
    rcases h _ hc with h | h
    · exact absurd h (by decide)
    · exact absurd h (by decide)
  · intro hc
    rcases h _ (List.mem_of_getLast? hc) with h | h
    · exact absurd h (by decide)
    · exact absurd h (by decide)

theorem pad_chars {w : Str} (h : ∀ c ∈ w, isWs c = false) (n : Nat) : ∀ c ∈ padLeft ' ' n w, isWs c = false ∨ c = ' ' := by
  intro c hc
  unfold padLeft at hc
  rcases List.mem_append.mp hc with hc | hc
  · exact Or.inr (List.eq_of_mem_replicate hc)
  · exact Or.inl (h c hc)

theorem epochLine_plain (c : Civil) : Plain (epochLine c) := by
  apply plain_of
  intro a ha
  have e : epochLine c = '*' :: ' ' :: ' ' :: (padLeft ' ' 4 (intStr c.year) ++ ' ' :: (padLeft ' ' 2 (natStr c.month) ++ ' ' :: (padLeft ' ' 2 (natStr c.day) ++ ' ' ::
    (padLeft ' ' 2 (natStr c.hour) ++ ' ' :: (padLeft ' ' 2 (natStr c.minute) ++ ' ' ::
      padLeft ' ' 11 (fmtFixed 8 ((c.second : ℚ) + (c.nano : ℚ) / 10 ^ 9))))))) := rfl
  rw [e] at ha
  simp only [List.mem_append, List.mem_cons] at ha
  rcases ha with rfl | rfl | rfl | ha | rfl | ha | rfl | ha | rfl | ha | rfl | ha | rfl | ha
  · exact Or.inl (by decide)
  · exact Or.inr rfl
  · exact Or.inr rfl
  · exact pad_chars (intStr_ws _) _ a ha
  · exact Or.inr rfl
  · exact pad_chars (natStr_ws _) _ a ha
  · exact Or.inr rfl
  · exact pad_chars (natStr_ws _) _ a ha
  · exact Or.inr rfl
  · exact pad_chars (natStr_ws _) _ a ha
  · exact Or.inr rfl
  · exact pad_chars (natStr_ws _) _ a ha
  · exact Or.inr rfl
  · exact pad_chars (fun c hc => (fmtFixed_chars _ _ c hc).2) _ a ha

theorem posLine_plain {p : Pos} (h : SatOk p.sat) : Plain (posLine p) := by
  have f := fun v => pad_chars (fun c hc => (fmtF64_chars 6 v c hc).2) 14
  constructor
  · intro ha
    unfold posLine at ha
    simp only [List.mem_append, List.mem_cons] at ha
    have nl : ∀ v, '\n' ∉ padLeft ' ' 14 (fmtF64 6 v) := by
      intro v hc
      rcases f v _ hc with h | h
      · exact absurd h (by decide)
      · exact absurd h (by decide)
    rcases ha with ha | ha | ha | ha | ha | ha | ha | ha | ha | ha
    · exact absurd ha (by decide)
    · unfold padRight at ha
      rcases List.mem_append.mp ha with ha | ha
      · exact h.2.2.2 ha
      · exact absurd (List.eq_of_mem_replicate ha) (by decide)
    · exact absurd ha (by decide)
    · exact nl _ ha
    · exact absurd ha (by decide)
    · exact nl _ ha
    · exact absurd ha (by decide)
    · exact nl _ ha
    · exact absurd ha (by decide)
    · exact nl _ ha
  · intro hl
    have hne : padLeft ' ' 14 (fmtF64 6 p.clock) ≠ [] := by unfold padLeft; simp [fmtF64_ne]
    have hlast : (posLine p).getLast? = (padLeft ' ' 14 (fmtF64 6 p.clock)).getLast? := by
      have hl : ∀ (u : Str) (v : Str), v ≠ [] → (u ++ ' ' :: v).getLast? = v.getLast? := by
        intro u v hv
        rw [List.getLast?_append_of_ne_nil _ (by simp), List.getLast?_cons_of_ne_nil hv]
      unfold posLine
      rw [List.getLast?_cons_of_ne_nil (by simp), hl _ _ (by simp), hl _ _ (by simp), hl _ _ (by simp), hl _ _ hne]
    rw [hlast] at hl
    rcases f _ _ (List.mem_of_getLast? hl) with h | h
    · exact absurd h (by decide)
    · exact absurd h (by decide)

/-! ### Reading what was written -/

theorem positions_loop {env : Env T} {ps : List Pos} (h : ∀ p ∈ ps, SatOk p.sat) (more : List Str) (no : Nat) (header : List Str)
    (epochs : List (Epoch T)) (e : Epoch T) :
    ∃ ps', List.Forall₂ ClosePos ps ps' ∧
      batchLoop env false ((ps.map posLine).map (fun l => l ++ ['\n']) ++ more) no header epochs false (some e) =
      batchLoop env false more (no + ps.length) header epochs false (some ⟨e.time, e.positions ++ ps'⟩) := by
  induction ps generalizing no e with
  | nil => exact ⟨[], List.Forall₂.nil, by simp⟩
  | cons p ps ih =>
    have hp := h p List.mem_cons_self
    obtain ⟨p', h1, h2⟩ := pos_written hp (no + 1)
    obtain ⟨ps', h3, h4⟩ := ih (fun q hq => h q (List.mem_cons_of_mem _ hq)) (no + 1) (pushPos e p')
    refine ⟨p' :: ps', List.Forall₂.cons h2 h3, ?_⟩
    have hpl := posLine_plain hp
    rw [List.map_cons, List.map_cons, List.cons_append, batchLoop]
    rw [trimEol_line hpl.1 hpl.2, if_neg (by unfold posLine; simp), if_neg (by simp), if_neg (by unfold posLine; simp), if_pos (by unfold posLine; rfl), h1]
    simp only [Res.bind]
    rw [h4]
    unfold pushPos
    simp only [List.append_assoc, List.singleton_append, List.length_cons]
    rw [show no + 1 + ps.length = no + (ps.length + 1) by omega]

theorem epochs_loop {env : Env T} (good : Good env) {es : List (Epoch T)} (ht : ∀ e ∈ es, TimeOk env e.time)
    (hp : ∀ e ∈ es, ∀ p ∈ e.positions, SatOk p.sat) :
    ∃ ls, epochLines env es = .ok ls ∧ (∀ l ∈ ls, '\n' ∉ l) ∧ ∀ (no : Nat) (header : List Str) (epochs : List (Epoch T)) (cur : Option (Epoch T)) (inH : Bool),
      (inH = false ∨ cur = none ∧ epochs = []) →
      ∃ es', List.Forall₂ CloseEpoch es es' ∧
        batchLoop env false (ls.map (fun l => l ++ ['\n']) ++ ["EOF\n".toList]) no header epochs inH cur = .ok ⟨header, epochs ++ (cur.toList ++ es')⟩ := by
  induction es with
  | nil =>
    refine ⟨[], rfl, by simp, fun no header epochs cur inH _ => ⟨[], List.Forall₂.nil, ?_⟩⟩
    rw [List.map_nil, List.nil_append]
    unfold batchLoop
    dsimp only
    rw [if_pos (by decide), List.append_nil]
  | cons e es ih =>
    obtain ⟨c, hc, hn, hn9⟩ := ht e List.mem_cons_self
    obtain ⟨ls, h1, h2, h3⟩ := ih (fun e' he' => ht e' (List.mem_cons_of_mem _ he')) (fun e' he' => hp e' (List.mem_cons_of_mem _ he'))
    have hps := hp e List.mem_cons_self
    refine ⟨epochLine c :: (e.positions.map posLine ++ ls), by simp only [epochLines, hc, h1, Res.ofOption, Res.bind], ?_, ?_⟩
    · intro l hl
      rcases List.mem_cons.mp hl with rfl | hl
      · exact (epochLine_plain c).1
      · rcases List.mem_append.mp hl with hl | hl
        · obtain ⟨p, hp', rfl⟩ := List.mem_map.mp hl
          exact (posLine_plain (hps p hp')).1
        · exact h2 l hl
    · intro no header epochs cur inH _
      have ep := epochLine_plain c
      obtain ⟨y0, y1⟩ := good.year _ _ hc
      obtain ⟨d1, d2, d3⟩ := good.date _ _ hc
      obtain ⟨t1, t2, t3⟩ := good.time _ _ hc
      have hw := epoch_written (env := env) y0 y1 (by omega) (by omega) t1 t2 t3 (by omega) d1 (no + 1)
      obtain ⟨c1, c2⟩ := centis_exact hn hn9
      rw [if_pos (by omega), c1, c2, good.back _ _ hc] at hw
      simp only [Res.ofOption, Res.bind] at hw
      obtain ⟨ps', q1, q2⟩ := positions_loop (env := env) hps (ls.map (fun l => l ++ ['\n']) ++ ["EOF\n".toList]) (no + 1) header (epochs ++ cur.toList) ⟨e.time, []⟩
      obtain ⟨es', q3, q4⟩ := h3 (no + 1 + e.positions.length) header (epochs ++ cur.toList) (some ⟨e.time, [] ++ ps'⟩) false (Or.inl rfl)
      refine ⟨⟨e.time, ps'⟩ :: es', List.Forall₂.cons ⟨rfl, q1⟩ q3, ?_⟩
      rw [List.map_cons, List.map_append, List.cons_append, List.append_assoc]
      unfold batchLoop
      dsimp only
      have hstar : (epochLine c).head? = some '*' := rfl
      rw [trimEol_line ep.1 ep.2, if_neg (by intro hE; rw [hE] at hstar; simp at hstar), if_neg (by intro hE; exact hE.2 hstar), if_pos hstar, hw]
      simp only [Res.bind]
      rw [q2, q4]
      simp

theorem header_loop {env : Env T} {hs : List Str} (h : ∀ l ∈ hs, HeaderOk l) (more : List Str) (no : Nat) (header : List Str) :
    batchLoop env false (hs.map (fun l => l ++ ['\n']) ++ more) no header [] true none =
      batchLoop env false more (no + hs.length) (header ++ hs) [] true none := by
  induction hs generalizing no header with
  | nil => simp
  | cons l hs ih =>
    obtain ⟨h1, h2, h3, h4⟩ := h l List.mem_cons_self
    rw [List.map_cons, List.cons_append, batchLoop]
    rw [trimEol_line h1 h2, if_neg h4, if_pos ⟨rfl, h3⟩, ih (fun l' hl' => h l' (List.mem_cons_of_mem _ hl'))]
    rw [List.append_assoc, List.singleton_append, List.length_cons, show no + 1 + hs.length = no + (hs.length + 1) by omega]

/-! ### C68 -/

/-- Writing a record and reading the text gives the record back: the same header, the same times, the same satellites
in the same order, and numbers to half a unit of the sixth decimal. For times in multiples of ten
nanoseconds outside leap seconds; the other times are missing: `nearly_sixty_unreadable`, `leap_second_unreadable`. -/
theorem write_read_partial {env : Env T} (good : Good env) {r : Record T} (hh : ∀ l ∈ r.header, HeaderOk l)
    (ht : ∀ e ∈ r.epochs, TimeOk env e.time) (hp : ∀ e ∈ r.epochs, ∀ p ∈ e.positions, SatOk p.sat) :
    ∃ text r', writeSp3 env r = .ok text ∧ readSp3 env ⟨rawLines text, false⟩ = .ok r' ∧ r'.header = r.header ∧
      List.Forall₂ CloseEpoch r.epochs r'.epochs := by
  obtain ⟨ls, h1, h2, h3⟩ := epochs_loop good ht hp
  obtain ⟨es', h4, h5⟩ := h3 (0 + r.header.length) ([] ++ r.header) [] none true (Or.inr ⟨rfl, rfl⟩)
  refine ⟨unlines (r.header ++ (ls ++ ["EOF".toList])), ⟨r.header, es'⟩, by simp only [writeSp3, h1, Res.bind], ?_, rfl, h4⟩
  unfold readSp3
  dsimp only
  rw [rawLines_unlines, List.map_append, header_loop hh, List.map_append]
  · rw [show (["EOF".toList] : List Str).map (fun l => l ++ ['\n']) = ["EOF\n".toList] by decide, h5]
    simp
  · intro l hl
    rcases List.mem_append.mp hl with hl | hl
    · exact (hh l hl).1
    · rcases List.mem_append.mp hl with hl | hl
      · exact h2 l hl
      · obtain rfl := List.mem_singleton.mp hl; decide

/-- Disagreement: the last five nanoseconds of a minute print as sixty seconds, which no reader accepts: for every date. -/
theorem nearly_sixty_unreadable {env : Env T} {c : Civil} (y0 : -2 ^ 31 < c.year) (y1 : c.year < 2 ^ 31) (hm : c.month ≤ 12) (hd : c.day ≤ 31)
    (hh : c.hour < 24) (hi : c.minute < 60) (hs : c.second = 59) (h0 : 999999995 < c.nano) (h1 : c.nano < 2 * 10 ^ 9)
    (hdate : env.dateOk c.year c.month c.day = true) (no : Nat) : batchEpoch env (epochLine c) no = .err (.date no) := by
  rw [epoch_written y0 y1 (by omega) (by omega) hh hi (by omega) h1 hdate, if_neg]
  intro hlt
  have hp : (0 : ℚ) ≤ ((c.second : ℚ) + (c.nano : ℚ) / 10 ^ 9) * 10 ^ 8 := by positivity
  have hr := (abs_le.mp (roundHalfEven_spec _ hp)).1
  have h2 : (c.nano : ℚ) > 999999995 := by exact_mod_cast h0
  have h3 : (centis c : ℚ) ≤ 60 * 10 ^ 8 - 1 := by
    have : centis c ≤ 60 * 10 ^ 8 - 1 := by omega
    have : ((centis c : ℕ) : ℚ) ≤ ((60 * 10 ^ 8 - 1 : ℕ) : ℚ) := by exact_mod_cast this
    push_cast at this
    linarith
  unfold centis at h3
  rw [hs] at hr h3
  have : (c.nano : ℚ) / 10 ^ 9 * 10 ^ 8 = c.nano / 10 := by ring
  push_cast at hr h3
  nlinarith

/-- Disagreement: a time inside a leap second is written with second sixty, and cannot be read. -/
theorem leap_second_unreadable {env : Env T} {c : Civil} (y0 : -2 ^ 31 < c.year) (y1 : c.year < 2 ^ 31) (hm : c.month ≤ 12) (hd : c.day ≤ 31)
    (hh : c.hour < 24) (hi : c.minute < 60) (hs : c.second = 59) (h0 : 10 ^ 9 ≤ c.nano) (h1 : c.nano < 2 * 10 ^ 9)
    (hdate : env.dateOk c.year c.month c.day = true) (no : Nat) : batchEpoch env (epochLine c) no = .err (.date no) :=
  nearly_sixty_unreadable y0 y1 hm hd hh hi hs (by omega) h1 hdate no

/-- An environment: times are the dates themselves. -/
def plainEnv : Env Civil :=
  ⟨fun y m d => decide (1900 ≤ y) && decide (y < 2100) && decide (1 ≤ m) && decide (m ≤ 12) && decide (1 ≤ d) && decide (d ≤ 28), some,
   fun c => if 1900 ≤ c.year ∧ c.year < 2100 ∧ 1 ≤ c.month ∧ c.month ≤ 12 ∧ 1 ≤ c.day ∧ c.day ≤ 28 ∧ c.hour < 24 ∧ c.minute < 60 ∧ c.second < 60 then some c else none⟩

theorem plainEnv_good : Good plainEnv := by
  have h : ∀ t c, plainEnv.toChrono t = some c → t = c ∧ 1900 ≤ c.year ∧ c.year < 2100 ∧ 1 ≤ c.month ∧ c.month ≤ 12 ∧ 1 ≤ c.day ∧ c.day ≤ 28 ∧
      c.hour < 24 ∧ c.minute < 60 ∧ c.second < 60 := by
    intro t c h
    unfold plainEnv at h
    dsimp only at h
    split at h
    · simp only [Option.some.injEq] at h
      subst h
      exact ⟨rfl, ‹_›⟩
    · simp at h
  refine ⟨fun t c hc => ?_, fun t c hc => ?_, fun t c hc => ?_, fun t c hc => ?_⟩ <;>
    obtain ⟨rfl, h1, h2, h3, h4, h5, h6, h7, h8, h9⟩ := h t c hc
  · constructor <;> omega
  · refine ⟨?_, h4, by omega⟩
    simp [plainEnv, *]
  · exact ⟨h7, h8, h9⟩
  · rfl

example : ∃ text r', writeSp3 plainEnv ⟨["#dP2024".toList, "/* c".toList],
      [⟨⟨2024, 1, 2, 3, 4, 59, 999999990⟩, [⟨"G01".toList, .num (1 / 3), .num (-20000), .inf true, .nan⟩]⟩, ⟨⟨2024, 1, 2, 3, 5, 0, 0⟩, []⟩]⟩ = .ok text ∧
    readSp3 plainEnv ⟨rawLines text, false⟩ = .ok r' ∧ r'.header = ["#dP2024".toList, "/* c".toList] ∧
      List.Forall₂ CloseEpoch [⟨⟨2024, 1, 2, 3, 4, 59, 999999990⟩, [⟨"G01".toList, .num (1 / 3), .num (-20000), .inf true, .nan⟩]⟩, ⟨⟨2024, 1, 2, 3, 5, 0, 0⟩, []⟩] r'.epochs := by
  apply write_read_partial plainEnv_good
  · intro l hl
    simp only [List.mem_cons, List.not_mem_nil, or_false] at hl
    rcases hl with rfl | rfl <;> exact ⟨by decide, by decide, by decide, by decide⟩
  · intro e he
    simp only [List.mem_cons, List.not_mem_nil, or_false] at he
    rcases he with rfl | rfl
    · exact ⟨_, rfl, by decide, by decide⟩
    · exact ⟨_, rfl, by decide, by decide⟩
  · intro e he p hp
    simp only [List.mem_cons, List.not_mem_nil, or_false] at he
    rcases he with rfl | rfl
    · simp only [List.mem_cons, List.not_mem_nil, or_false] at hp
      subst hp
      exact ⟨by unfold isAscii; decide, by decide, tight_of_all (by decide), by decide⟩
    · simp at hp

/-- Disagreement: seconds that are negative or not a number are read as second zero. -/
theorem nonsense_seconds_accepted :
    (batchEpoch plainEnv "*  2024  1  2  3  4 -7.5".toList 1).bind (fun e => .ok e.time) = .ok ⟨2024, 1, 2, 3, 4, 0, 0⟩ ∧
    (batchEpoch plainEnv "*  2024  1  2  3  4 nan".toList 1).bind (fun e => .ok e.time) = .ok ⟨2024, 1, 2, 3, 4, 0, 0⟩ := by
  decide +kernel

/-- Disagreement: a second with a fraction that rounds up to a whole second is refused, except second 59, which becomes a leap second. -/
theorem rounding_up_second :
    (batchEpoch plainEnv "*  2024  1  2  3  4 7.9999999999".toList 1).bind (fun e => .ok e.time) = .err (.date 1) ∧
    (batchEpoch plainEnv "*  2024  1  2  3  4 59.9999999999".toList 1).bind (fun e => .ok e.time) = .ok ⟨2024, 1, 2, 3, 4, 59, 1000000000⟩ := by
  decide +kernel

end Verif.Sp3.Props
