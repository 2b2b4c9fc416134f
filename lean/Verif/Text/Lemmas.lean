import Verif.Text.Model
import Mathlib.Tactic.Linarith
import Mathlib.Tactic.Ring
import Mathlib.Tactic.FieldSimp
import Mathlib.Tactic.IntervalCases
import Mathlib.Tactic.Push

namespace Verif.Text

/-! ### ASCII strings: byte offsets are character offsets -/

theorem utf8Size_ascii {c : Char} (h : c.toNat < 128) : c.utf8Size = 1 := by
  unfold Char.utf8Size
  have : c.val ≤ 0x7f := by
    rw [UInt32.le_iff_toNat_le]
    change c.toNat ≤ 127
    omega
  simp [this]

theorem isAscii_cons {c : Char} {s : Str} : isAscii (c :: s) ↔ c.toNat < 128 ∧ isAscii s := by
  simp [isAscii]

theorem isAscii_append {s t : Str} : isAscii (s ++ t) ↔ isAscii s ∧ isAscii t := by
  simp only [isAscii, List.mem_append]
  constructor
  · intro h; exact ⟨fun c hc => h c (Or.inl hc), fun c hc => h c (Or.inr hc)⟩
  · rintro ⟨h1, h2⟩ c (hc | hc)
    · exact h1 c hc
    · exact h2 c hc

theorem blen_ascii {s : Str} (h : isAscii s) : blen s = s.length := by
  induction s with
  | nil => rfl
  | cons c cs ih =>
    rw [isAscii_cons] at h
    have := ih h.2
    simp only [blen, List.map_cons, List.sum_cons, List.length_cons] at this ⊢
    rw [utf8Size_ascii h.1, this]; omega

theorem blen_append (s t : Str) : blen (s ++ t) = blen s + blen t := by
  simp [blen]

theorem dropB_ascii {s : Str} (h : isAscii s) (n : Nat) :
    dropB s n = if n ≤ s.length then some (s.drop n) else none := by
  induction s generalizing n with
  | nil => cases n <;> simp [dropB]
  | cons c cs ih =>
    rw [isAscii_cons] at h
    cases n with
    | zero => simp [dropB]
    | succ n => simp [dropB, utf8Size_ascii h.1, ih h.2]

theorem takeB_ascii {s : Str} (h : isAscii s) (n : Nat) :
    takeB s n = if n ≤ s.length then some (s.take n) else none := by
  induction s generalizing n with
  | nil => cases n <;> simp [takeB]
  | cons c cs ih =>
    rw [isAscii_cons] at h
    cases n with
    | zero => simp [takeB]
    | succ n =>
      simp only [takeB, utf8Size_ascii h.1, Nat.le_add_left, if_true, Nat.add_sub_cancel, ih h.2,
        List.length_cons, Nat.add_le_add_iff_right, List.take_succ_cons]
      split <;> simp

theorem slice_ascii {s : Str} (h : isAscii s) {i j : Nat} (hij : i ≤ j) (hj : j ≤ s.length) :
    slice s i j = some ((s.drop i).take (j - i)) := by
  unfold slice
  rw [if_pos hij, dropB_ascii h, if_pos (by omega)]
  simp only [Option.bind_some]
  rw [takeB_ascii (fun c hc => h c (List.mem_of_mem_drop hc)), if_pos (by simp; omega)]

theorem slice_mid {a b c : Str} (h : isAscii (a ++ (b ++ c))) {i j : Nat} (hi : a.length = i)
    (hj : i + b.length = j) : slice (a ++ (b ++ c)) i j = some b := by
  rw [slice_ascii h (by omega) (by simp; omega)]
  subst hi
  rw [List.drop_left, List.take_append_of_le_length (by omega), List.take_of_length_le (by omega)]

theorem utf8_ascii_cons {c : Char} (h : c.toNat < 128) :
    String.utf8EncodeChar c = [UInt8.ofNat c.toNat] := by
  unfold String.utf8EncodeChar
  have h2 : c.toNat ≤ 127 := by omega
  simp [h2]

theorem utf8_ascii {s : Str} (h : isAscii s) : utf8 s = s.map (fun c => UInt8.ofNat c.toNat) := by
  induction s with
  | nil => rfl
  | cons c cs ih =>
    rw [isAscii_cons] at h
    have := ih h.2
    simp only [utf8, List.flatMap_cons, List.map_cons] at this ⊢
    rw [utf8_ascii_cons h.1, this]; rfl

theorem blen_utf8 (s : Str) : (utf8 s).length = blen s := by
  induction s with
  | nil => rfl
  | cons c cs ih =>
    simp only [utf8, blen, List.flatMap_cons, List.length_append, List.map_cons, List.sum_cons,
      String.length_utf8EncodeChar] at ih ⊢
    rw [ih]

/-! ### Trimming -/

theorem trimStart_replicate (n : Nat) (s : Str) :
    trimStart (List.replicate n ' ' ++ s) = trimStart s := by
  induction n with
  | zero => rfl
  | succ n ih =>
    simp only [trimStart, List.replicate_succ, List.cons_append, List.dropWhile_cons] at ih ⊢
    rw [if_pos (by decide)]
    exact ih

theorem trimEnd_replicate (n : Nat) (s : Str) :
    trimEnd (s ++ List.replicate n ' ') = trimEnd s := by
  unfold trimEnd
  rw [List.reverse_append, List.reverse_replicate]
  exact congrArg _ (trimStart_replicate n s.reverse)

/-- Neither the first nor the last character is white space. -/
def Tight (s : Str) : Prop :=
  (∀ c, s.head? = some c → isWs c = false) ∧ (∀ c, s.getLast? = some c → isWs c = false)

theorem trimStart_tight {s : Str} (h : ∀ c, s.head? = some c → isWs c = false) : trimStart s = s := by
  cases s with
  | nil => rfl
  | cons c cs =>
    simp only [trimStart, List.dropWhile_cons, h c rfl]
    rfl

theorem trimEnd_tight {s : Str} (h : ∀ c, s.getLast? = some c → isWs c = false) : trimEnd s = s := by
  unfold trimEnd
  have := trimStart_tight (s := s.reverse) (fun c hc => h c (by simpa using hc))
  unfold trimStart at this
  rw [this, List.reverse_reverse]

theorem trim_tight {s : Str} (h : Tight s) : trim s = s := by
  unfold trim; rw [trimStart_tight h.1, trimEnd_tight h.2]

theorem trim_padLeft {s : Str} (h : Tight s) (w : Nat) : trim (padLeft ' ' w s) = s := by
  unfold trim padLeft
  rw [trimStart_replicate, ← trim, trim_tight h]

theorem trimStart_padLeft {s : Str} (h : Tight s) (w : Nat) : trimStart (padLeft ' ' w s) = s := by
  unfold padLeft
  rw [trimStart_replicate, trimStart_tight h.1]

theorem trim_padRight {s : Str} (h : Tight s) (w : Nat) : trim (padRight w s) = s := by
  unfold trim padRight
  by_cases hs : s = []
  · subst hs
    have : trimStart (([] : Str) ++ List.replicate (w - 0) ' ') = [] := by
      have := trimStart_replicate (w - 0) []
      simpa [trimStart] using this
    simp only [List.length_nil]
    rw [this]; rfl
  · have h1 : trimStart (s ++ List.replicate (w - s.length) ' ') = s ++ List.replicate (w - s.length) ' ' := by
      apply trimStart_tight
      intro c hc
      cases s with
      | nil => exact absurd rfl hs
      | cons d ds => exact h.1 c (by simpa using hc)
    rw [h1, trimEnd_replicate, trimEnd_tight h.2]

/-! ### Digits -/

theorem digitChar_isDigit {d : Nat} (h : d < 10) : (digitChar d).isDigit = true := by
  interval_cases d <;> decide

theorem digitChar_val {d : Nat} (h : d < 10) : digitVal (digitChar d) = d := by
  interval_cases d <;> decide

theorem digitChar_ascii {d : Nat} (h : d < 10) : (digitChar d).toNat < 128 := by
  interval_cases d <;> decide

theorem digitVal_lt {c : Char} (h : c.isDigit = true) : digitVal c < 10 := by
  simp only [Char.isDigit, Bool.and_eq_true, decide_eq_true_eq] at h
  have h1 : c.val.toNat ≥ 48 := by have := h.1; rw [ge_iff_le, UInt32.le_iff_toNat_le] at this; exact this
  have h2 : c.val.toNat ≤ 57 := by have := h.2; rw [UInt32.le_iff_toNat_le] at this; exact this
  unfold digitVal
  have : c.toNat = c.val.toNat := rfl
  omega

theorem isDigit_range {c : Char} : c.isDigit = true ↔ 48 ≤ c.toNat ∧ c.toNat ≤ 57 := by
  simp only [Char.isDigit, Bool.and_eq_true, decide_eq_true_eq, ge_iff_le, UInt32.le_iff_toNat_le]
  rfl

theorem isDigit_ascii {c : Char} (h : c.isDigit = true) : c.toNat < 128 := by
  rw [isDigit_range] at h; omega

theorem isDigit_not_ws {c : Char} (h : c.isDigit = true) : isWs c = false := by
  rw [isDigit_range] at h
  obtain ⟨h1, h2⟩ := h
  unfold isWs
  generalize c.toNat = n at *
  simp only [Bool.or_eq_false_iff, Bool.and_eq_false_iff, decide_eq_false_iff_not, beq_eq_false_iff_ne]
  omega

theorem digitsVal_append (s t : Str) : digitsVal (s ++ t) = digitsVal s * 10 ^ t.length + digitsVal t := by
  unfold digitsVal
  rw [List.foldl_append]
  generalize s.foldl (fun acc c => 10 * acc + digitVal c) 0 = a
  induction t generalizing a with
  | nil => simp
  | cons c cs ih =>
    simp only [List.foldl_cons, List.length_cons]
    rw [ih (10 * a + digitVal c), ih (10 * 0 + digitVal c)]
    rw [pow_succ]; ring

theorem natStr_digits (n : Nat) : (natStr n).all Char.isDigit = true ∧ natStr n ≠ [] ∧
    digitsVal (natStr n) = n := by
  induction n using Nat.strongRecOn with
  | ind n ih =>
    rw [natStr]
    split
    · rename_i h
      simp [digitChar_isDigit h, digitsVal, digitChar_val h]
    · rename_i h
      obtain ⟨h1, h2, h3⟩ := ih (n / 10) (by omega)
      have hd : n % 10 < 10 := Nat.mod_lt _ (by omega)
      refine ⟨by simp only [List.all_append, h1, List.all_cons, digitChar_isDigit hd, List.all_nil,
        Bool.and_self], by simp, ?_⟩
      rw [digitsVal_append, h3]
      simp [digitsVal, digitChar_val hd]
      omega

theorem digitsW_length (w n : Nat) : (digitsW w n).length = w := by
  induction w generalizing n with
  | zero => rfl
  | succ w ih => simp [digitsW, ih]

theorem digitsW_digits (w n : Nat) : (digitsW w n).all Char.isDigit = true ∧
    digitsVal (digitsW w n) = n % 10 ^ w := by
  induction w generalizing n with
  | zero => simp [digitsW, digitsVal]; omega
  | succ w ih =>
    obtain ⟨h1, h2⟩ := ih (n / 10)
    have hd : n % 10 < 10 := Nat.mod_lt _ (by omega)
    refine ⟨by simp only [digitsW, List.all_append, h1, List.all_cons, digitChar_isDigit hd,
      List.all_nil, Bool.and_self], ?_⟩
    rw [digitsW, digitsVal_append, h2]
    simp only [digitsVal, List.foldl_cons, List.foldl_nil, digitChar_val hd, List.length_cons,
      List.length_nil]
    rw [pow_succ 10 w]
    have := Nat.mod_mul (x := n) (a := 10) (b := 10 ^ w)
    rw [Nat.mul_comm 10 (10 ^ w)] at this
    rw [this]
    omega

/-- Zero padding of a number that fits gives exactly its last `w` digits. -/
theorem natStr_length_le (w n : Nat) (h : n < 10 ^ (w + 1)) : (natStr n).length ≤ w + 1 := by
  induction w generalizing n with
  | zero => rw [natStr, if_pos (by simpa using h)]; simp
  | succ w ih =>
    rw [natStr]
    split
    · simp
    · have := ih (n / 10) (by rw [pow_succ] at h; omega)
      simp; omega

theorem natStr_length_gt (w n : Nat) (h : 10 ^ w ≤ n) : w < (natStr n).length := by
  induction w generalizing n with
  | zero =>
    have := (natStr_digits n).2.1
    exact List.length_pos_of_ne_nil this
  | succ w ih =>
    rw [natStr]
    have : 10 ≤ n := le_trans (by have := Nat.one_le_pow w 10 (by omega); rw [pow_succ]; omega) h
    rw [if_neg (by omega)]
    have := ih (n / 10) (by rw [pow_succ] at h; omega)
    simp; omega

theorem replicate_zero_digits (m : Nat) (s : Str) :
    digitsVal (List.replicate m '0' ++ s) = digitsVal s := by
  rw [digitsVal_append]
  have : digitsVal (List.replicate m '0') = 0 := by
    induction m with
    | zero => rfl
    | succ m ih =>
      rw [List.replicate_succ', digitsVal_append, ih]; decide
  rw [this]; omega

theorem padZero_digits (w n : Nat) : (padLeft '0' w (natStr n)).all Char.isDigit = true ∧
    padLeft '0' w (natStr n) ≠ [] ∧ digitsVal (padLeft '0' w (natStr n)) = n := by
  obtain ⟨h1, h2, h3⟩ := natStr_digits n
  refine ⟨?_, ?_, ?_⟩
  · unfold padLeft
    rw [List.all_append, h1, Bool.and_true]
    rw [List.all_eq_true]
    intro c hc
    rw [List.eq_of_mem_replicate hc]; decide
  · unfold padLeft; simp [h2]
  · unfold padLeft
    rw [replicate_zero_digits, h3]

theorem digitsW_zero (w : Nat) : digitsW w 0 = List.replicate w '0' := by
  induction w with
  | zero => rfl
  | succ w ih => rw [digitsW, Nat.zero_div, ih, List.replicate_succ']; rfl

theorem padZero_eq_digitsW (w n : Nat) (hw : 0 < w) (h : n < 10 ^ w) :
    padLeft '0' w (natStr n) = digitsW w n := by
  induction w generalizing n with
  | zero => omega
  | succ w ih =>
    rw [digitsW, natStr]
    split
    · rename_i h10
      rw [Nat.div_eq_of_lt h10, digitsW_zero, Nat.mod_eq_of_lt h10]
      unfold padLeft
      simp
    · rename_i h10
      have hw' : 0 < w := by
        rcases Nat.eq_zero_or_pos w with rfl | h'
        · simp at h; omega
        · exact h'
      rw [← ih (n / 10) hw' (by rw [pow_succ] at h; omega)]
      unfold padLeft
      rw [List.length_append, List.append_assoc]
      simp

theorem padLeft_length (c : Char) (w : Nat) (s : Str) : (padLeft c w s).length = max w s.length := by
  unfold padLeft; simp; omega

theorem padRight_length (w : Nat) (s : Str) : (padRight w s).length = max w s.length := by
  unfold padRight; simp; omega

theorem all_digit_ascii {s : Str} (h : s.all Char.isDigit = true) : isAscii s := by
  intro c hc
  exact isDigit_ascii (List.all_eq_true.mp h c hc)

theorem all_digit_tight {s : Str} (h : s.all Char.isDigit = true) : Tight s := by
  rw [List.all_eq_true] at h
  constructor
  · intro c hc
    exact isDigit_not_ws (h c (List.mem_of_head? hc))
  · intro c hc
    exact isDigit_not_ws (h c (List.mem_of_getLast? hc))

theorem isAscii_replicate (n : Nat) (c : Char) (h : c.toNat < 128) : isAscii (List.replicate n c) := by
  intro d hd; rw [List.eq_of_mem_replicate hd]; exact h

theorem padLeft_ascii {s : Str} (h : isAscii s) (c : Char) (hc : c.toNat < 128) (w : Nat) :
    isAscii (padLeft c w s) := by
  unfold padLeft; rw [isAscii_append]; exact ⟨isAscii_replicate _ _ hc, h⟩

theorem padRight_ascii {s : Str} (h : isAscii s) (w : Nat) : isAscii (padRight w s) := by
  unfold padRight; rw [isAscii_append]; exact ⟨h, isAscii_replicate _ _ (by decide)⟩

theorem parseDigits_of {s : Str} (h : s.all Char.isDigit = true) (h2 : s ≠ []) :
    parseDigits s = some (digitsVal s) := by
  unfold parseDigits; rw [if_pos ⟨h2, h⟩]

theorem digits_head {s : Str} (h : s.all Char.isDigit = true) (h2 : s ≠ []) :
    ∃ c t, s = c :: t ∧ c.isDigit = true := by
  cases s with
  | nil => exact absurd rfl h2
  | cons c t => exact ⟨c, t, rfl, by simp at h; exact h.1⟩

theorem parseUInt_of {s : Str} {max : Nat} (h : s.all Char.isDigit = true) (h2 : s ≠ [])
    (hm : digitsVal s ≤ max) : parseUInt max s = some (digitsVal s) := by
  obtain ⟨c, t, rfl, hc⟩ := digits_head h h2
  unfold parseUInt
  have : c ≠ '+' := by rintro rfl; simp at hc
  split
  · rename_i r heq
    exact absurd (List.cons.inj ‹_ = _›).1 this
  · simp [parseDigits_of h h2, hm]

theorem parseInt_of {s : Str} {max : Nat} (h : s.all Char.isDigit = true) (h2 : s ≠ [])
    (hm : digitsVal s ≤ max) : parseInt max s = some (digitsVal s : Int) := by
  obtain ⟨c, t, rfl, hc⟩ := digits_head h h2
  unfold parseInt
  have h3 : c ≠ '+' := by rintro rfl; simp at hc
  have h4 : c ≠ '-' := by rintro rfl; simp at hc
  split
  · exact absurd (List.cons.inj ‹_ = _›).1 h4
  · exact absurd (List.cons.inj ‹_ = _›).1 h3
  · simp [parseDigits_of h h2, hm]

/-! ### Fixed-point text -/

theorem takeWhile_digits {s r : Str} (h : s.all Char.isDigit = true)
    (hr : ∀ c, r.head? = some c → c.isDigit = false) :
    (s ++ r).takeWhile Char.isDigit = s ∧ (s ++ r).dropWhile Char.isDigit = r := by
  induction s with
  | nil =>
    cases r with
    | nil => simp
    | cons c cs => simp [hr c rfl]
  | cons c cs ih =>
    simp only [List.all_cons, Bool.and_eq_true] at h
    obtain ⟨i1, i2⟩ := ih h.2
    simp [h.1, i1, i2]

theorem parseUFloat_point {a b : Str} (ha : a.all Char.isDigit = true) (hb : b.all Char.isDigit = true)
    (hne : ¬ (a = [] ∧ b = [])) :
    parseUFloat (a ++ '.' :: b) = some ((digitsVal (a ++ b) : ℚ) / 10 ^ b.length) := by
  have h1 := takeWhile_digits (s := a) (r := '.' :: b) ha (by simp)
  have h2 := takeWhile_digits (s := b) (r := []) hb (by simp)
  rw [List.append_nil] at h2
  unfold parseUFloat
  simp only [h1.1, h1.2, h2.1, h2.2, if_neg hne, parseExp]
  simp

theorem parseUFloat_int {a : Str} (ha : a.all Char.isDigit = true) (hne : a ≠ []) :
    parseUFloat a = some (digitsVal a : ℚ) := by
  have h1 := takeWhile_digits (s := a) (r := []) ha (by simp)
  rw [List.append_nil] at h1
  unfold parseUFloat
  simp only [h1.1, h1.2, parseExp]
  simp [hne]

theorem parseFloat_neg {s : Str} {q : ℚ} (h : parseUFloat s = some q) :
    parseFloat ('-' :: s) = some (.num (-q)) := by
  simp [parseFloat, h]

theorem parseFloat_pos {s : Str} {q : ℚ} (h : parseUFloat s = some q)
    (hs : ∀ c, s.head? = some c → c ≠ '-' ∧ c ≠ '+') : parseFloat s = some (.num q) := by
  unfold parseFloat
  cases s with
  | nil => simp [h]
  | cons c t =>
    have := hs c rfl
    split
    rename_i neg r heq
    split at heq
    · rename_i h'; exact absurd (List.cons.inj h').1 this.1
    · rename_i h'; exact absurd (List.cons.inj h').1 this.2
    · simp only [Prod.mk.injEq] at heq
      obtain ⟨rfl, rfl⟩ := heq
      simp [h]

theorem fixedStr_shape (p k : Nat) : ∃ a b, fixedStr p k = a ++ '.' :: b ∧ a.all Char.isDigit = true ∧
    a ≠ [] ∧ b.all Char.isDigit = true ∧ b.length = p ∧ digitsVal (a ++ b) = k := by
  obtain ⟨h1, h2, h3⟩ := natStr_digits (k / 10 ^ p)
  obtain ⟨h4, h5⟩ := digitsW_digits p (k % 10 ^ p)
  refine ⟨_, _, rfl, h1, h2, h4, digitsW_length _ _, ?_⟩
  rw [digitsVal_append, h3, h5, digitsW_length, Nat.mod_mod, mul_comm]
  exact Nat.div_add_mod k (10 ^ p)

theorem parseUFloat_fixedStr (p k : Nat) : parseUFloat (fixedStr p k) = some ((k : ℚ) / 10 ^ p) := by
  obtain ⟨a, b, h, ha, hne, hb, hl, hv⟩ := fixedStr_shape p k
  rw [h, parseUFloat_point ha hb (fun h => hne h.1), hv, hl]

theorem fixedStr_head (p k : Nat) : ∃ c t, fixedStr p k = c :: t ∧ c.isDigit = true := by
  obtain ⟨a, b, h, ha, hne, _⟩ := fixedStr_shape p k
  obtain ⟨c, t, rfl, hc⟩ := digits_head ha hne
  exact ⟨c, t ++ '.' :: b, by rw [h]; rfl, hc⟩

theorem parseFloat_fixedStr (p k : Nat) :
    parseFloat (fixedStr p k) = some (.num ((k : ℚ) / 10 ^ p)) := by
  apply parseFloat_pos (parseUFloat_fixedStr p k)
  obtain ⟨c, t, h, hc⟩ := fixedStr_head p k
  intro d hd
  rw [h] at hd
  simp at hd; subst hd
  constructor <;> (rintro rfl; simp at hc)

/-- The value printed by `{:.p}`. -/
def fixedValue (p : Nat) (q : ℚ) : ℚ :=
  (if q < 0 then -1 else 1) * ((roundHalfEven (|q| * 10 ^ p) : ℕ) : ℚ) / 10 ^ p

theorem parseFloat_fmtFixed (p : Nat) (q : ℚ) :
    parseFloat (fmtFixed p q) = some (.num (fixedValue p q)) := by
  unfold fmtFixed fixedValue
  split
  · rw [List.cons_append, List.nil_append, parseFloat_neg (parseUFloat_fixedStr p _)]
    congr 2; ring
  · rw [List.nil_append, parseFloat_fixedStr]
    congr 2; ring

theorem isDigit_point {c : Char} (h : c = '.' ∨ c.isDigit = true) : c.toNat < 128 ∧ isWs c = false := by
  rcases h with rfl | h
  · decide
  · exact ⟨isDigit_ascii h, isDigit_not_ws h⟩

theorem fixedStr_chars (p k : Nat) : ∀ c ∈ fixedStr p k, c = '.' ∨ c.isDigit = true := by
  obtain ⟨a, b, h, ha, _, hb, _⟩ := fixedStr_shape p k
  rw [List.all_eq_true] at ha hb
  intro c hc
  rw [h] at hc
  rcases List.mem_append.mp hc with hc | hc
  · exact Or.inr (ha c hc)
  · rcases List.mem_cons.mp hc with hc | hc
    · exact Or.inl hc
    · exact Or.inr (hb c hc)

theorem fmtFixed_chars (p : Nat) (q : ℚ) : ∀ c ∈ fmtFixed p q, c.toNat < 128 ∧ isWs c = false := by
  intro c hc
  unfold fmtFixed at hc
  rcases List.mem_append.mp hc with hc | hc
  · split at hc
    · simp at hc; subst hc; decide
    · simp at hc
  · exact isDigit_point (fixedStr_chars _ _ c hc)

theorem tight_of_all {s : Str} (h : ∀ c ∈ s, isWs c = false) : Tight s :=
  ⟨fun c hc => h c (List.mem_of_head? hc), fun c hc => h c (List.mem_of_getLast? hc)⟩

theorem fmtFixed_tight (p : Nat) (q : ℚ) : Tight (fmtFixed p q) :=
  tight_of_all (fun c hc => (fmtFixed_chars p q c hc).2)

theorem fmtFixed_ascii (p : Nat) (q : ℚ) : isAscii (fmtFixed p q) :=
  fun c hc => (fmtFixed_chars p q c hc).1

theorem fixedStr_length_le (p w k : Nat) (h : k < 10 ^ (p + w + 1)) :
    (fixedStr p k).length ≤ p + w + 2 := by
  unfold fixedStr
  have : k / 10 ^ p < 10 ^ (w + 1) := by
    rw [Nat.div_lt_iff_lt_mul (by positivity), ← pow_add]
    convert h using 2; omega
  have := natStr_length_le w _ this
  simp [digitsW_length]; omega

theorem fixedStr_length_gt (p w k : Nat) (h : 10 ^ (p + w) ≤ k) :
    p + w + 1 < (fixedStr p k).length := by
  unfold fixedStr
  have : 10 ^ w ≤ k / 10 ^ p := by
    rw [Nat.le_div_iff_mul_le (by positivity), ← pow_add]
    convert h using 2; omega
  have := natStr_length_gt w _ this
  simp [digitsW_length]; omega

/-! ### Rounding -/

theorem roundHalfEven_spec (x : ℚ) (hx : 0 ≤ x) : |(roundHalfEven x : ℚ) - x| ≤ 1 / 2 := by
  unfold roundHalfEven
  have h1 := Int.floor_le x
  have h2 := Int.lt_floor_add_one x
  have h0 : 0 ≤ ⌊x⌋ := Int.floor_nonneg.mpr hx
  obtain ⟨n, hn⟩ := Int.eq_ofNat_of_zero_le h0
  rw [hn] at h1 h2
  simp only [hn, Int.toNat_natCast] at *
  push_cast at h1 h2
  split
  · rename_i h; rw [abs_le]; constructor <;> linarith
  · rename_i h
    split
    · rename_i h'
      push_cast
      rw [abs_le]; constructor <;> linarith
    · rename_i h'
      have : x - n = 1 / 2 := le_antisymm (not_lt.mp h') (not_lt.mp h)
      split
      · rw [abs_le]; constructor <;> linarith
      · push_cast; rw [abs_le]; constructor <;> linarith

theorem roundHalfEven_natCast (n : ℕ) : roundHalfEven (n : ℚ) = n := by
  simp [roundHalfEven]

theorem roundHalfUp_natCast (n : ℕ) : roundHalfUp (n : ℚ) = n := by
  unfold roundHalfUp
  have : ⌊(n : ℚ) + 1 / 2⌋ = n := by
    rw [Int.floor_eq_iff]; push_cast; constructor <;> linarith
  rw [this]; simp

theorem roundHalfUp_spec (x : ℚ) (hx : 0 ≤ x) : |(roundHalfUp x : ℚ) - x| ≤ 1 / 2 := by
  unfold roundHalfUp
  have h1 := Int.floor_le (x + 1 / 2)
  have h2 := Int.lt_floor_add_one (x + 1 / 2)
  have h0 : 0 ≤ ⌊x + 1 / 2⌋ := Int.floor_nonneg.mpr (by linarith)
  obtain ⟨n, hn⟩ := Int.eq_ofNat_of_zero_le h0
  rw [hn] at h1 h2
  simp only [hn, Int.toNat_natCast] at *
  push_cast at h1 h2
  rw [abs_le]; constructor <;> linarith

/-- The printed value is within half a unit of the last printed digit. -/
theorem fixedValue_close (p : Nat) (q : ℚ) : |fixedValue p q - q| ≤ 1 / 2 / 10 ^ p := by
  have h := roundHalfEven_spec (|q| * 10 ^ p) (by positivity)
  unfold fixedValue
  generalize (roundHalfEven (|q| * 10 ^ p) : ℚ) = k at *
  have hp : (0 : ℚ) < 10 ^ p := by positivity
  split
  · rename_i hq
    rw [abs_of_neg hq] at h
    have e : -1 * k / 10 ^ p - q = -((k - -q * 10 ^ p) / 10 ^ p) := by field_simp; ring
    rw [e, abs_neg, abs_div, abs_of_pos hp]
    gcongr
  · rename_i hq
    rw [abs_of_nonneg (not_lt.mp hq)] at h
    have e : 1 * k / 10 ^ p - q = (k - q * 10 ^ p) / 10 ^ p := by field_simp
    rw [e, abs_div, abs_of_pos hp]
    gcongr

end Verif.Text
