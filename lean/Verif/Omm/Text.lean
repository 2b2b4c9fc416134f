import Verif.Omm.Read
import Verif.Rinex.Write

/-
The texts written: numbers, epochs, escaped names, tags.
-/
namespace Verif.Omm.Props
open Verif.Text Verif.Omm
open Verif.Kvn.Props (Carried Near)

variable {T : Type}

/-! ### Specification -/

/-- The number read is the number written to nine significant digits; infinities and not-a-number come back. -/
def NearRel (a b : F64) : Prop :=
  match a with
  | .num q => ∃ q', b = .num q' ∧ |q' - q| ≤ |q| / 200000000
  | other => b = other

/-- A number with at most `p` decimals. -/
def Decimals (p : Nat) (v : F64) : Prop := ∃ k : Int, v = .num (k / 10 ^ p)

/-- A number with at most nine significant digits. -/
def Nine (v : F64) : Prop := ∃ m e : Int, |m| < 1000000000 ∧ v = .num (m * (10 : ℚ) ^ e)

/-! ### Numbers -/

/-- What `{:.p}` lets through. -/
def back (p : Nat) : F64 → F64
  | .num q => .num (fixedValue p q)
  | v => v

theorem back_reads (p : Nat) (v : F64) : parseFloat (Sp3.fmtF64 p v) = some (back p v) := by
  cases v with
  | num q => exact parseFloat_fmtFixed p q
  | inf b => cases b <;> (simp only [Sp3.fmtF64, back]; decide)
  | nan => simp only [Sp3.fmtF64, back]; decide

theorem back_near (p : Nat) (v : F64) : Near (1 / 2 / 10 ^ p) v (back p v) := by
  cases v with
  | num q => exact ⟨_, rfl, fixedValue_close p q⟩
  | inf b => rfl
  | nan => rfl

theorem abs_intCast_nat (k : Int) : |(k : ℚ)| = (k.natAbs : ℚ) := by
  rw [← Int.cast_abs, Int.abs_eq_natAbs]
  rfl

theorem sign_natAbs {k : Int} {q : ℚ} (hq : q < 0 ↔ k < 0) : (if q < 0 then (-1 : ℚ) else 1) * (k.natAbs : ℚ) = k := by
  rw [← abs_intCast_nat]
  by_cases h : k < 0
  · rw [if_pos (hq.mpr h), abs_of_neg (by exact_mod_cast h)]; ring
  · rw [if_neg (fun h' => h (hq.mp h')), abs_of_nonneg (by exact_mod_cast not_lt.mp h)]; ring

theorem back_exact {p : Nat} {v : F64} (h : Decimals p v) : back p v = v := by
  obtain ⟨k, rfl⟩ := h
  have hp : (0 : ℚ) < 10 ^ p := by positivity
  have e : |(k : ℚ) / 10 ^ p| * 10 ^ p = (k.natAbs : ℚ) := by
    rw [abs_div, abs_of_pos hp, div_mul_cancel₀ _ hp.ne', abs_intCast_nat]
  show F64.num (fixedValue p _) = _
  unfold fixedValue
  rw [e, roundHalfEven_natCast, sign_natAbs (k := k)]
  rw [div_lt_iff₀ hp, zero_mul]
  exact_mod_cast Iff.rfl

/-- The number printed by `{:.8e}`. -/
def sciVal (q : ℚ) : ℚ := (if q < 0 then -1 else 1) * (((sciParts q).2 : ℚ) / 10 ^ 8 * (10 : ℚ) ^ (sciParts q).1)

/-- What `{:.8e}` lets through. -/
def backSci : F64 → F64
  | .num q => .num (sciVal q)
  | v => v

theorem parseExp_intStr (n : Int) : parseExp ('e' :: Sp3.intStr n) = some n := by
  have := Rinex.Props.parseExp_intStr n
  unfold parseExp at this ⊢
  simpa using this

theorem parseUFloat_sci {p m : Nat} {e : Int} : parseUFloat (fixedStr p m ++ 'e' :: Sp3.intStr e) = some ((m : ℚ) / 10 ^ p * (10 : ℚ) ^ e) := by
  obtain ⟨a, b, h, ha, hne, hb, hl, hv⟩ := fixedStr_shape p m
  have e1 : fixedStr p m ++ 'e' :: Sp3.intStr e = a ++ '.' :: (b ++ 'e' :: Sp3.intStr e) := by
    rw [h, List.append_assoc]
    rfl
  rw [e1]
  have h1 := takeWhile_digits (s := a) (r := '.' :: (b ++ 'e' :: Sp3.intStr e)) ha (by simp)
  have h2 := takeWhile_digits (s := b) (r := 'e' :: Sp3.intStr e) hb (by simp)
  unfold parseUFloat
  simp only [h1.1, h1.2, h2.1, h2.2]
  rw [if_neg (fun h => hne h.1), parseExp_intStr, Option.map_some, hv, hl]

theorem sci_reads (v : F64) : parseFloat (sci v) = some (backSci v) := by
  cases v with
  | num q =>
    show parseFloat ((if q < 0 then ['-'] else []) ++ (fixedStr 8 (sciParts q).2 ++ 'e' :: Sp3.intStr (sciParts q).1)) = some (.num (sciVal q))
    unfold sciVal
    have h := parseUFloat_sci (p := 8) (m := (sciParts q).2) (e := (sciParts q).1)
    split
    · rw [List.singleton_append, parseFloat_neg h]
      simp
    · rw [List.nil_append, parseFloat_pos h]
      · simp
      · obtain ⟨c, t, hc, hd⟩ := fixedStr_head 8 (sciParts q).2
        intro x hx
        rw [hc] at hx
        simp at hx
        rw [← hx]
        constructor <;> (rintro rfl; simp at hd)
  | inf b => cases b <;> (simp only [sci, backSci]; decide)
  | nan => simp only [sci, backSci]; decide

theorem log_range {q : ℚ} (h : q ≠ 0) : 1 ≤ |q| / (10 : ℚ) ^ Int.log 10 |q| ∧ |q| / (10 : ℚ) ^ Int.log 10 |q| < 10 := by
  have hq : 0 < |q| := abs_pos.2 h
  have h1 : ((10 : ℕ) : ℚ) ^ Int.log 10 |q| ≤ |q| := Int.zpow_log_le_self (by norm_num) hq
  have h2 : |q| < ((10 : ℕ) : ℚ) ^ (Int.log 10 |q| + 1) := Int.lt_zpow_succ_log_self (by norm_num) _
  push_cast at h1 h2
  rw [zpow_add₀ (by norm_num), zpow_one] at h2
  have hp : (0 : ℚ) < (10 : ℚ) ^ Int.log 10 |q| := zpow_pos (by norm_num) _
  exact ⟨by rwa [le_div_iff₀ hp, one_mul], by rw [div_lt_iff₀ hp]; linarith⟩

theorem sciMag_close {q : ℚ} (h : q ≠ 0) : abs (((sciParts q).2 : ℚ) / 10 ^ 8 * (10 : ℚ) ^ (sciParts q).1 - |q|) ≤ |q| / 200000000 := by
  obtain ⟨l1, l2⟩ := log_range h
  unfold sciParts
  rw [if_neg h]
  dsimp only
  generalize Int.log 10 |q| = e at *
  have hp : (0 : ℚ) < (10 : ℚ) ^ e := zpow_pos (by norm_num) _
  have hr := roundHalfEven_spec (|q| / (10 : ℚ) ^ e * 10 ^ 8) (by positivity)
  generalize hm : roundHalfEven (|q| / (10 : ℚ) ^ e * 10 ^ 8) = m at *
  have hclose : abs ((m : ℚ) / 10 ^ 8 * (10 : ℚ) ^ e - |q|) ≤ |q| / 200000000 := by
    have e2 : (m : ℚ) / 10 ^ 8 * (10 : ℚ) ^ e - |q| = ((m : ℚ) - |q| / (10 : ℚ) ^ e * 10 ^ 8) * ((10 : ℚ) ^ e / 10 ^ 8) := by
      field_simp
    rw [e2, abs_mul, abs_of_pos (show (0 : ℚ) < (10 : ℚ) ^ e / 10 ^ 8 by positivity)]
    have h1 : (10 : ℚ) ^ e ≤ |q| := by rwa [le_div_iff₀ hp, one_mul] at l1
    calc _ ≤ 1 / 2 * ((10 : ℚ) ^ e / 10 ^ 8) := by gcongr
      _ ≤ 1 / 2 * (|q| / 10 ^ 8) := by gcongr
      _ = _ := by ring
  split
  · rename_i hc
    rw [hc] at hclose
    dsimp only
    rw [zpow_add₀ (by norm_num), zpow_one]
    have e3 : ((10 ^ 8 : ℕ) : ℚ) / 10 ^ 8 * ((10 : ℚ) ^ e * 10) = ((10 ^ 9 : ℕ) : ℚ) / 10 ^ 8 * (10 : ℚ) ^ e := by
      norm_num
      ring
    rw [e3]
    exact hclose
  · exact hclose

theorem sciVal_close (q : ℚ) : |sciVal q - q| ≤ |q| / 200000000 := by
  by_cases h : q = 0
  · subst h
    simp [sciVal, sciParts]
  · have := sciMag_close h
    unfold sciVal
    split
    · rename_i hn
      rw [abs_of_neg hn] at this ⊢
      rw [show (-1 : ℚ) * (((sciParts q).2 : ℚ) / 10 ^ 8 * (10 : ℚ) ^ (sciParts q).1) - q =
        -(((sciParts q).2 : ℚ) / 10 ^ 8 * (10 : ℚ) ^ (sciParts q).1 - -q) by ring, abs_neg]
      exact this
    · rename_i hn
      rw [abs_of_nonneg (not_lt.1 hn)] at this ⊢
      rw [one_mul]
      exact this

theorem backSci_near (v : F64) : NearRel v (backSci v) := by
  cases v with
  | num q => exact ⟨_, rfl, sciVal_close q⟩
  | inf b => rfl
  | nan => rfl

theorem backSci_exact {v : F64} (h : Nine v) : backSci v = v := by
  obtain ⟨m, e, hm, rfl⟩ := h
  show F64.num (sciVal _) = _
  congr 1
  by_cases h0 : (m : ℚ) * (10 : ℚ) ^ e = 0
  · rw [h0]; simp [sciVal, sciParts]
  have hpe : (0 : ℚ) < (10 : ℚ) ^ e := zpow_pos (by norm_num) _
  have habs : |(m : ℚ) * (10 : ℚ) ^ e| = (m.natAbs : ℚ) * (10 : ℚ) ^ e := by
    rw [abs_mul, abs_of_pos hpe, abs_intCast_nat]
  have hmn : m.natAbs < 1000000000 := by
    rw [Int.abs_eq_natAbs] at hm
    exact_mod_cast hm
  obtain ⟨l1, l2⟩ := log_range h0
  have hneg : (m : ℚ) * (10 : ℚ) ^ e < 0 ↔ m < 0 := by
    rw [mul_neg_iff]
    constructor
    · rintro (⟨_, h⟩ | ⟨h, _⟩)
      · exact absurd h (not_lt.mpr hpe.le)
      · exact_mod_cast h
    · intro h
      exact Or.inr ⟨by exact_mod_cast h, hpe⟩
  unfold sciVal sciParts
  rw [if_neg h0]
  dsimp only
  rw [habs] at *
  generalize Int.log 10 ((m.natAbs : ℚ) * (10 : ℚ) ^ e) = E at *
  have hp : (0 : ℚ) < (10 : ℚ) ^ E := zpow_pos (by norm_num) _
  rw [le_div_iff₀ hp, one_mul] at l1
  have hE : E ≤ e + 8 := by
    have h2 : (10 : ℚ) ^ E < (10 : ℚ) ^ (e + 9) := by
      calc (10 : ℚ) ^ E ≤ (m.natAbs : ℚ) * (10 : ℚ) ^ e := l1
        _ < 1000000000 * (10 : ℚ) ^ e := by
          apply mul_lt_mul_of_pos_right _ hpe
          exact_mod_cast hmn
        _ = (10 : ℚ) ^ (e + 9) := by
          rw [zpow_add₀ (by norm_num)]
          norm_num
          ring
    have := (zpow_lt_zpow_iff_right₀ (by norm_num : (1 : ℚ) < 10)).mp h2
    omega
  obtain ⟨j, hj⟩ := Int.eq_ofNat_of_zero_le (show 0 ≤ e + 8 - E by omega)
  have key : (m.natAbs : ℚ) * (10 : ℚ) ^ e / (10 : ℚ) ^ E * 10 ^ 8 = ((m.natAbs * 10 ^ j : ℕ) : ℚ) := by
    have : (10 : ℚ) ^ e / (10 : ℚ) ^ E * 10 ^ 8 = (10 : ℚ) ^ j := by
      rw [← zpow_natCast (10 : ℚ) j, ← zpow_natCast (10 : ℚ) 8, ← zpow_sub₀ (by norm_num), ← zpow_add₀ (by norm_num)]
      congr 1
      push_cast
      omega
    rw [mul_div_assoc, mul_assoc, this]
    push_cast
    ring
  rw [key, roundHalfEven_natCast]
  have hlt : m.natAbs * 10 ^ j < 10 ^ 9 := by
    have : ((m.natAbs * 10 ^ j : ℕ) : ℚ) < 10 ^ 9 := by rw [← key]; linarith
    exact_mod_cast this
  rw [if_neg (ne_of_lt hlt)]
  dsimp only
  have back : ((m.natAbs * 10 ^ j : ℕ) : ℚ) / 10 ^ 8 * (10 : ℚ) ^ E = (m.natAbs : ℚ) * (10 : ℚ) ^ e := by
    rw [← key]
    field_simp
  rw [back, ← mul_assoc, sign_natAbs hneg]

/-! ### Characters -/

/-- Text without blanks and opening angles. -/
def Clean (s : Str) : Prop := ∀ c ∈ s, isWs c = false ∧ c ≠ '<'

theorem clean_append {a b : Str} (ha : Clean a) (hb : Clean b) : Clean (a ++ b) :=
  fun c hc => (List.mem_append.mp hc).elim (ha c) (hb c)

theorem clean_cons {x : Char} {b : Str} (ha : isWs x = false ∧ x ≠ '<') (hb : Clean b) : Clean (x :: b) := by
  intro c hc
  rcases List.mem_cons.mp hc with rfl | hc
  · exact ha
  · exact hb c hc

theorem clean_digits {s : Str} (h : s.all Char.isDigit = true) : Clean s := by
  intro c hc
  have := List.all_eq_true.mp h c hc
  exact ⟨isDigit_not_ws this, by rintro rfl; simp at this⟩

theorem clean_carried {s : Str} (h : Clean s) : Carried s :=
  ⟨tight_of_all (fun c hc => (h c hc).1), fun hc => absurd (h _ hc).1 (by decide)⟩

theorem clean_fixedStr (p m : Nat) : Clean (fixedStr p m) := by
  intro c hc
  rcases fixedStr_chars p m c hc with rfl | h
  · decide
  · exact ⟨isDigit_not_ws h, by rintro rfl; simp at h⟩

theorem clean_fmt (p : Nat) (v : F64) : Clean (Sp3.fmtF64 p v) := by
  cases v with
  | num q =>
    show Clean (fmtFixed p q)
    unfold fmtFixed
    refine clean_append ?_ (clean_fixedStr _ _)
    split
    · unfold Clean; decide
    · unfold Clean; decide
  | inf b => cases b <;> (simp only [Clean, Sp3.fmtF64]; decide)
  | nan => simp only [Clean, Sp3.fmtF64]; decide

theorem clean_intStr (n : Int) : Clean (Sp3.intStr n) := by
  unfold Sp3.intStr
  split
  · exact clean_cons (by decide) (clean_digits (natStr_digits _).1)
  · exact clean_digits (natStr_digits _).1

theorem clean_sci (v : F64) : Clean (sci v) := by
  cases v with
  | num q =>
    show Clean ((if q < 0 then ['-'] else []) ++ (fixedStr 8 (sciParts q).2 ++ 'e' :: Sp3.intStr (sciParts q).1))
    refine clean_append ?_ (clean_append (clean_fixedStr _ _) (clean_cons (by decide) (clean_intStr _)))
    split
    · unfold Clean; decide
    · unfold Clean; decide
  | inf b => cases b <;> (unfold Clean; decide)
  | nan => unfold Clean; decide

theorem clean_nat (n : Nat) : Clean (natStr n) := clean_digits (natStr_digits n).1

theorem clean_class (k : Tle.Classification) : Clean [k.asChar] := by cases k <;> (unfold Clean; decide)

/-! ### Epochs -/

theorem padInt_chars (w : Nat) (n : Int) : ∀ c ∈ Rinex.padInt w n, c = '-' ∨ c.isDigit = true := by
  unfold Rinex.padInt
  intro c hc
  split at hc
  · rcases List.mem_cons.mp hc with rfl | hc
    · exact Or.inl rfl
    · exact Or.inr (List.all_eq_true.mp (padZero_digits _ _).1 c hc)
  · exact Or.inr (List.all_eq_true.mp (padZero_digits _ _).1 c hc)

theorem stamp_chars (c : Civil) : ∀ x ∈ stamp c, (x = '-' ∨ x = 'T' ∨ x = ':' ∨ x = '.') ∨ x.isDigit = true := by
  have two : ∀ n, ∀ x ∈ Rinex.two n, x.isDigit = true := fun n x hx => List.all_eq_true.mp (Rinex.Props.two_digits n).1 x hx
  intro x hx
  unfold stamp at hx
  simp only [List.mem_append, List.mem_cons] at hx
  rcases hx with h | h | h | h | h | h | h | h | h | h | h | h | h
  · rcases padInt_chars _ _ x h with h | h
    · exact Or.inl (Or.inl h)
    · exact Or.inr h
  all_goals first
    | exact Or.inr (two _ _ h)
    | exact Or.inr (List.all_eq_true.mp (padZero_digits _ _).1 x h)
    | (subst h; simp)

theorem clean_stamp (c : Civil) : Clean (stamp c) := by
  intro x hx
  rcases stamp_chars c x hx with (rfl | rfl | rfl | rfl) | h
  · decide
  · decide
  · decide
  · decide
  · exact ⟨isDigit_not_ws h, by rintro rfl; simp at h⟩

theorem stamp_date (c : Civil) : DatePart (stamp c) (stamp c) := by
  have no : ∀ x, x = '+' ∨ x = 'Z' → x ∉ stamp c := by
    intro x hx hc
    rcases stamp_chars c x hc with h | h
    · rcases hx with rfl | rfl <;> simp at h
    · rcases hx with rfl | rfl <;> simp at h
  refine Or.inr ?_
  rw [trim_tight (clean_carried (clean_stamp c)).1]
  refine ⟨no _ (Or.inl rfl), fun h => no 'Z' (Or.inr rfl) (List.mem_of_getLast? h), 0, by simp⟩

theorem stamp_reads {env : Env T} {c c' : Civil} {t : T} (h1 : env.parse (stamp c) = some c') (h2 : env.make c' = some t) :
    Instant env (stamp c) t := ⟨_, c', stamp_date c, h1, h2⟩

/-! ### Escaping -/

/-- The entity of a character. -/
def esc (c : Char) : Str :=
  if c = '&' then "&amp;".toList else if c = '<' then "&lt;".toList else if c = '>' then "&gt;".toList
  else if c = '"' then "&quot;".toList else if c = '\'' then "&apos;".toList else [c]

theorem replace_single (x : Char) (r s : Str) : replace [x] r s = s.flatMap (fun c => if c = x then r else [c]) := by
  unfold replace
  induction s with
  | nil => rfl
  | cons c t ih =>
    rw [replaceGo, List.flatMap_cons]
    by_cases h : c = x
    · subst h
      rw [if_pos (by simp [List.isPrefixOf]), if_pos rfl]
      exact congrArg _ ih
    · rw [if_neg (by simpa [List.isPrefixOf] using Ne.symm h), if_neg h]
      exact congrArg _ ih

theorem escape_eq (s : Str) : escape s = s.flatMap esc := by
  unfold escape
  have e1 : "&".toList = ['&'] := rfl
  have e2 : "<".toList = ['<'] := rfl
  have e3 : ">".toList = ['>'] := rfl
  have e4 : "\"".toList = ['"'] := rfl
  have e5 : "'".toList = ['\''] := rfl
  rw [e1, e2, e3, e4, e5]
  simp only [replace_single, List.flatMap_assoc]
  congr 1
  funext c
  unfold esc
  by_cases h1 : c = '&'
  · subst h1; decide
  by_cases h2 : c = '<'
  · subst h2; decide
  by_cases h3 : c = '>'
  · subst h3; decide
  by_cases h4 : c = '"'
  · subst h4; decide
  by_cases h5 : c = '\''
  · subst h5; decide
  simp [h1, h2, h3, h4, h5]

theorem replaceGo_skip (p r xs rest : Str) : replaceGo p r xs.length (xs ++ rest) = replaceGo p r 0 rest := by
  induction xs with
  | nil => rfl
  | cons x xs ih =>
    rw [List.length_cons, List.cons_append, replaceGo]
    exact ih

theorem replaceGo_pass {p' r xs : Str} (h : '&' ∉ xs) (rest : Str) :
    replaceGo ('&' :: p') r 0 (xs ++ rest) = xs ++ replaceGo ('&' :: p') r 0 rest := by
  induction xs with
  | nil => rfl
  | cons x xs ih =>
    simp only [List.mem_cons, not_or] at h
    rw [List.cons_append, replaceGo, if_neg, ih h.2]
    · rfl
    · simp only [List.isPrefixOf, Bool.and_eq_true, beq_iff_eq, not_and]
      intro hx
      exact absurd hx h.1

/-- One entity is undone and everything else stays. -/
theorem replace_stage {p' r : Str} {f g : Char → Str}
    (h : ∀ c, (f c = '&' :: p' ∧ g c = r) ∨
      (g c = f c ∧ ∃ x xs, f c = x :: xs ∧ '&' ∉ xs ∧ ∀ rest, List.isPrefixOf ('&' :: p') (f c ++ rest) = false)) (s : Str) :
    replace ('&' :: p') r (s.flatMap f) = s.flatMap g := by
  unfold replace
  induction s with
  | nil => rfl
  | cons c t ih =>
    rw [List.flatMap_cons, List.flatMap_cons]
    rcases h c with ⟨h1, h2⟩ | ⟨h1, x, xs, h2, h3, h4⟩
    · rw [h1, h2, List.cons_append, replaceGo, if_pos]
      · have : ('&' :: p').length - 1 = p'.length := by simp
        rw [this, replaceGo_skip, ih]
      · exact List.isPrefixOf_iff_prefix.mpr ⟨t.flatMap f, rfl⟩
    · rw [h1]
      have := h4 (t.flatMap f)
      rw [h2, List.cons_append] at this ⊢
      rw [replaceGo, if_neg (by rw [this]; simp), replaceGo_pass h3, ih]
      rfl

def esc4 (c : Char) : Str :=
  if c = '&' then "&amp;".toList else if c = '<' then "&lt;".toList else if c = '>' then "&gt;".toList
  else if c = '"' then "&quot;".toList else [c]

def esc3 (c : Char) : Str :=
  if c = '&' then "&amp;".toList else if c = '<' then "&lt;".toList else if c = '>' then "&gt;".toList else [c]

def esc2 (c : Char) : Str := if c = '&' then "&amp;".toList else if c = '<' then "&lt;".toList else [c]

def esc1 (c : Char) : Str := if c = '&' then "&amp;".toList else [c]

theorem other_char {p' : Str} {c : Char} (hc : c ≠ '&') (rest : Str) : List.isPrefixOf ('&' :: p') ([c] ++ rest) = false := by
  simp only [List.singleton_append, List.isPrefixOf, Bool.and_eq_false_iff]
  left
  simpa using Ne.symm hc

/-- Undoing the entities gives the text back, whatever it is. -/
theorem unescape_escape (s : Str) : unescape (escape s) = s := by
  rw [escape_eq]
  unfold unescape
  have a1 : replace "&apos;".toList "'".toList (s.flatMap esc) = s.flatMap esc4 := by
    apply replace_stage (p' := "apos;".toList)
    intro c
    unfold esc esc4
    by_cases h1 : c = '&'
    · subst h1; right; exact ⟨by decide, _, _, rfl, by decide, fun _ => rfl⟩
    by_cases h2 : c = '<'
    · subst h2; right; exact ⟨by decide, _, _, rfl, by decide, fun _ => rfl⟩
    by_cases h3 : c = '>'
    · subst h3; right; exact ⟨by decide, _, _, rfl, by decide, fun _ => rfl⟩
    by_cases h4 : c = '"'
    · subst h4; right; exact ⟨by decide, _, _, rfl, by decide, fun _ => rfl⟩
    by_cases h5 : c = '\''
    · subst h5; left; exact ⟨by decide, by decide⟩
    right
    simp only [h1, h2, h3, h4, h5, if_false]
    exact ⟨trivial, _, _, rfl, by simp, other_char h1⟩
  have a2 : replace "&quot;".toList "\"".toList (s.flatMap esc4) = s.flatMap esc3 := by
    apply replace_stage (p' := "quot;".toList)
    intro c
    unfold esc4 esc3
    by_cases h1 : c = '&'
    · subst h1; right; exact ⟨by decide, _, _, rfl, by decide, fun _ => rfl⟩
    by_cases h2 : c = '<'
    · subst h2; right; exact ⟨by decide, _, _, rfl, by decide, fun _ => rfl⟩
    by_cases h3 : c = '>'
    · subst h3; right; exact ⟨by decide, _, _, rfl, by decide, fun _ => rfl⟩
    by_cases h4 : c = '"'
    · subst h4; left; exact ⟨by decide, by decide⟩
    right
    simp only [h1, h2, h3, h4, if_false]
    exact ⟨trivial, _, _, rfl, by simp, other_char h1⟩
  have a3 : replace "&gt;".toList ">".toList (s.flatMap esc3) = s.flatMap esc2 := by
    apply replace_stage (p' := "gt;".toList)
    intro c
    unfold esc3 esc2
    by_cases h1 : c = '&'
    · subst h1; right; exact ⟨by decide, _, _, rfl, by decide, fun _ => rfl⟩
    by_cases h2 : c = '<'
    · subst h2; right; exact ⟨by decide, _, _, rfl, by decide, fun _ => rfl⟩
    by_cases h3 : c = '>'
    · subst h3; left; exact ⟨by decide, by decide⟩
    right
    simp only [h1, h2, h3, if_false]
    exact ⟨trivial, _, _, rfl, by simp, other_char h1⟩
  have a4 : replace "&lt;".toList "<".toList (s.flatMap esc2) = s.flatMap esc1 := by
    apply replace_stage (p' := "lt;".toList)
    intro c
    unfold esc2 esc1
    by_cases h1 : c = '&'
    · subst h1; right; exact ⟨by decide, _, _, rfl, by decide, fun _ => rfl⟩
    by_cases h2 : c = '<'
    · subst h2; left; exact ⟨by decide, by decide⟩
    right
    simp only [h1, h2, if_false]
    exact ⟨trivial, _, _, rfl, by simp, other_char h1⟩
  have a5 : replace "&amp;".toList "&".toList (s.flatMap esc1) = s.flatMap (fun c => [c]) := by
    apply replace_stage (p' := "amp;".toList)
    intro c
    unfold esc1
    by_cases h1 : c = '&'
    · subst h1; left; exact ⟨by decide, by decide⟩
    right
    simp only [h1, if_false]
    exact ⟨trivial, _, _, rfl, by simp, other_char h1⟩
  rw [a1, a2, a3, a4, a5]
  simp

theorem esc_chars (c : Char) : ∀ x ∈ esc c, x ≠ '<' := by
  intro x hx
  unfold esc at hx
  by_cases h1 : c = '&'
  · subst h1; rintro rfl; exact absurd hx (by decide)
  by_cases h2 : c = '<'
  · subst h2; rintro rfl; exact absurd hx (by decide)
  by_cases h3 : c = '>'
  · subst h3; rintro rfl; exact absurd hx (by decide)
  by_cases h4 : c = '"'
  · subst h4; rintro rfl; exact absurd hx (by decide)
  by_cases h5 : c = '\''
  · subst h5; rintro rfl; exact absurd hx (by decide)
  simp only [h1, h2, h3, h4, h5, if_false, List.mem_singleton] at hx
  rw [hx]
  exact h2

theorem escape_no_angle (s : Str) : '<' ∉ escape s := by
  rw [escape_eq, List.mem_flatMap]
  rintro ⟨c, _, hc⟩
  exact esc_chars c _ hc rfl

theorem esc_ends (c : Char) (h : isWs c = false) : (∀ x, (esc c).head? = some x → isWs x = false) ∧
    (∀ x, (esc c).getLast? = some x → isWs x = false) ∧ esc c ≠ [] := by
  unfold esc
  by_cases h1 : c = '&'
  · subst h1; exact ⟨by decide, by decide, by decide⟩
  by_cases h2 : c = '<'
  · subst h2; exact ⟨by decide, by decide, by decide⟩
  by_cases h3 : c = '>'
  · subst h3; exact ⟨by decide, by decide, by decide⟩
  by_cases h4 : c = '"'
  · subst h4; exact ⟨by decide, by decide, by decide⟩
  by_cases h5 : c = '\''
  · subst h5; exact ⟨by decide, by decide, by decide⟩
  simp only [h1, h2, h3, h4, h5, if_false]
  refine ⟨?_, ?_, by simp⟩ <;> (intro x hx; simp at hx; rw [← hx]; exact h)

theorem escape_tight {s : Str} (h : Tight s) : Tight (escape s) := by
  rw [escape_eq]
  constructor
  · intro x hx
    cases s with
    | nil => simp at hx
    | cons c t =>
      have := esc_ends c (h.1 c rfl)
      rw [List.flatMap_cons, List.head?_append_of_ne_nil _ this.2.2] at hx
      exact this.1 x hx
  · intro x hx
    rcases s.eq_nil_or_concat with rfl | ⟨t, c, rfl⟩
    · simp at hx
    · rw [List.concat_eq_append] at h hx
      have := esc_ends c (h.2 c (by simp))
      rw [List.flatMap_append, List.flatMap_singleton, List.getLast?_append_of_ne_nil _ this.2.2] at hx
      exact this.2.1 x hx

/-! ### Tags -/

/-- Tags, each followed by text. -/
def render (ps : List (Str × Str)) : Str := ps.flatMap (fun p => '<' :: (p.1 ++ '>' :: p.2))

def PieceOk (p : Str × Str) : Prop := '<' ∉ p.1 ∧ '>' ∉ p.1 ∧ '<' ∉ p.2

theorem findSub_skip {p' xs : Str} (h : '<' ∉ xs) (rest : Str) :
    findSub ('<' :: p') (xs ++ rest) = (findSub ('<' :: p') rest).map (fun r => (xs ++ r.1, r.2)) := by
  induction xs with
  | nil => simp
  | cons x xs ih =>
    simp only [List.mem_cons, not_or] at h
    rw [List.cons_append, findSub, if_neg, ih h.2, Option.map_map]
    · rfl
    · simp only [List.isPrefixOf, Bool.and_eq_true, beq_iff_eq, not_and]
      intro hx
      exact absurd hx h.1

theorem tag_prefix {a b x : Str} (ha : '>' ∉ a) (hb : '>' ∉ b) (h : (a ++ ['>']).isPrefixOf (b ++ '>' :: x) = true) : a = b := by
  obtain ⟨r, hr⟩ := List.isPrefixOf_iff_prefix.mp h
  rw [List.append_assoc] at hr
  exact (append_cons_unique ha hb hr).1

theorem findSub_render {tag : Str} (ht : '>' ∉ tag) {pre : List (Str × Str)} (hp : ∀ p ∈ pre, PieceOk p ∧ p.1 ≠ tag) (rest : Str) :
    findSub ('<' :: (tag ++ ['>'])) (render pre ++ ('<' :: (tag ++ '>' :: rest))) = some (render pre, rest) := by
  induction pre with
  | nil =>
    show findSub _ ('<' :: (tag ++ '>' :: rest)) = _
    rw [findSub, if_pos]
    · congr 2
      have : '<' :: (tag ++ '>' :: rest) = ('<' :: (tag ++ ['>'])) ++ rest := by simp
      rw [this, List.drop_left]
    · exact List.isPrefixOf_iff_prefix.mpr ⟨rest, by simp⟩
  | cons p pre ih =>
    have hp0 := hp p (by simp)
    obtain ⟨⟨p1, p2, p3⟩, p4⟩ := hp0
    have e : render (p :: pre) ++ ('<' :: (tag ++ '>' :: rest)) =
        '<' :: ((p.1 ++ '>' :: p.2) ++ (render pre ++ ('<' :: (tag ++ '>' :: rest)))) := by
      simp [render]
    rw [e, findSub, if_neg, findSub_skip (by simp [p1, p3]), ih (fun q hq => hp q (by simp [hq]))]
    · simp [render]
    · intro h
      have h2 : (tag ++ ['>']).isPrefixOf (p.1 ++ '>' :: (p.2 ++ (render pre ++ ('<' :: (tag ++ '>' :: rest))))) = true := by
        simpa [List.isPrefixOf] using h
      exact p4 (tag_prefix ht p2 h2).symm

/-- The first element of a name is found by its place. -/
theorem extract_render {ps : List (Str × Str)} {k : Nat} {tag v w : Str} (ht : '>' ∉ tag) (hok : ∀ p ∈ ps, PieceOk p)
    (h1 : ps[k]? = some (tag, v)) (h2 : ps[k + 1]? = some ('/' :: tag, w)) (h3 : tag ∉ (ps.take k).map Prod.fst) (hv : Tight v) :
    extractTag (render ps) tag = some v := by
  have e1 : ps = ps.take k ++ ((tag, v) :: ('/' :: tag, w) :: ps.drop (k + 2)) := by
    obtain ⟨hk, hg⟩ := List.getElem?_eq_some_iff.mp h1
    obtain ⟨hk2, hg2⟩ := List.getElem?_eq_some_iff.mp h2
    conv_lhs => rw [← List.take_append_drop k ps, List.drop_eq_getElem_cons hk, List.drop_eq_getElem_cons hk2, hg, hg2]
  have e2 : render ps = render (ps.take k) ++ ('<' :: (tag ++ '>' :: (v ++ '<' :: (('/' :: tag) ++ '>' :: (w ++ render (ps.drop (k + 2))))))) := by
    conv_lhs => rw [e1]
    simp [render]
  have hpre : ∀ p ∈ ps.take k, PieceOk p ∧ p.1 ≠ tag := by
    intro p hp
    refine ⟨hok p (List.mem_of_mem_take hp), ?_⟩
    rintro rfl
    exact h3 (List.mem_map_of_mem hp)
  have hvok := (hok (tag, v) (by rw [e1]; simp)).2.2
  unfold extractTag
  rw [e2, findSub_render ht hpre]
  simp only [Option.bind_some]
  rw [show ('<' :: '/' :: (tag ++ ['>'])) = '<' :: (('/' :: tag) ++ ['>']) from rfl, findSub_skip hvok]
  have := findSub_render (tag := '/' :: tag) (by simp [ht]) (pre := []) (by simp) (w ++ render (ps.drop (k + 2)))
  rw [show render [] = [] from rfl, List.nil_append] at this
  rw [this]
  simp [trim_tight hv]

end Verif.Omm.Props
