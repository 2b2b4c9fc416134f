import Verif.Tle.Assumed

namespace Verif.Tle
open Verif.Text

theorem roundHalfEven_lt {x : ℚ} {n : ℕ} (hx : 0 ≤ x) (h : x ≤ (n : ℚ)) : roundHalfEven x < n + 1 := by
  have := roundHalfEven_spec x hx
  rw [abs_le] at this
  have h2 : (roundHalfEven x : ℚ) < (n : ℚ) + 1 := by linarith [this.2]
  exact_mod_cast h2

theorem fmtFixed_length_le {p w : Nat} {q : ℚ} (hpos : 0 ≤ q → roundHalfEven (q * 10 ^ p) < 10 ^ (p + w + 2))
    (hneg : q < 0 → roundHalfEven (-q * 10 ^ p) < 10 ^ (p + w + 1)) :
    (fmtFixed p q).length ≤ p + w + 3 := by
  unfold fmtFixed
  by_cases h : q < 0
  · rw [if_pos h, abs_of_neg h]
    have := fixedStr_length_le p w _ (hneg h)
    simp only [List.cons_append, List.nil_append, List.length_cons]
    omega
  · rw [if_neg h, abs_of_nonneg (not_lt.mp h)]
    have := fixedStr_length_le p (w + 1) _ (by
      have := hpos (not_lt.mp h)
      rw [show p + (w + 1) + 1 = p + w + 2 by omega]; exact this)
    simp only [List.nil_append]
    omega

/-- Angle columns (`{:8.4}`). -/
theorem angle_length {q : ℚ} (h1 : -999999 / 10000 ≤ q) (h2 : q ≤ 9999999 / 10000) :
    (padLeft ' ' 8 (fmtFixed 4 q)).length = 8 := by
  rw [padLeft_length]
  have := fmtFixed_length_le (p := 4) (w := 1) (q := q)
    (fun h => by
      have := roundHalfEven_lt (n := 9999999) (x := q * 10 ^ 4) (by positivity) (by push_cast; linarith)
      exact this)
    (fun h => by
      have := roundHalfEven_lt (n := 999999) (x := -q * 10 ^ 4)
        (by have : 0 ≤ -q := by linarith
            positivity) (by push_cast; linarith)
      exact this)
  omega

/-- Mean motion column (`{:11.8}`). -/
theorem motion_length {q : ℚ} (h1 : -999999999 / 100000000 ≤ q) (h2 : q ≤ 9999999999 / 100000000) :
    (padLeft ' ' 11 (fmtFixed 8 q)).length = 11 := by
  rw [padLeft_length]
  have := fmtFixed_length_le (p := 8) (w := 0) (q := q)
    (fun h => by
      have := roundHalfEven_lt (n := 9999999999) (x := q * 10 ^ 8) (by positivity) (by push_cast; linarith)
      exact this)
    (fun h => by
      have := roundHalfEven_lt (n := 999999999) (x := -q * 10 ^ 8)
        (by have : 0 ≤ -q := by linarith
            positivity) (by push_cast; linarith)
      exact this)
  omega

theorem parse_fixed_col (w p : Nat) (q : ℚ) :
    parseFloatField (padLeft ' ' w (fmtFixed p q)) = .ok (.num (fixedValue p q)) := by
  unfold parseFloatField
  rw [trim_padLeft (fmtFixed_tight p q), parseFloat_fmtFixed]; rfl

theorem parse_int_col (w n : Nat) (h : n ≤ i64Max) :
    parseIntField (trimStart (padLeft ' ' w (natStr n))) = .ok (n : ℤ) := by
  obtain ⟨h1, h2, h3⟩ := natStr_digits n
  unfold parseIntField
  rw [trimStart_padLeft (all_digit_tight h1), trim_tight (all_digit_tight h1),
    parseInt_of h1 h2 (by rw [h3]; exact h), h3]
  rfl

theorem parse_zint_col (w n : Nat) (h : n ≤ i64Max) :
    parseIntField (padLeft '0' w (natStr n)) = .ok (n : ℤ) := by
  obtain ⟨h1, h2, h3⟩ := padZero_digits w n
  unfold parseIntField
  rw [trim_tight (all_digit_tight h1), parseInt_of h1 h2 (by rw [h3]; exact h), h3]
  rfl

theorem parse_ecc_col {n : Nat} (h : n < 10 ^ 7) :
    parseEcc (padLeft '0' 7 (natStr n)) = .ok ((n : ℚ) / 10 ^ 7) := by
  obtain ⟨h1, h2, h3⟩ := padZero_digits 7 n
  have hl : (padLeft '0' 7 (natStr n)).length = 7 := by
    have := natStr_length_le 6 n h
    rw [padLeft_length]; omega
  unfold parseEcc
  dsimp only
  rw [trim_tight (all_digit_tight h1), if_neg (by simp [h2]; simpa using h1),
    parseUInt_of h1 h2 (by rw [h3]; unfold u64Max; omega), h3, blen_ascii (all_digit_ascii h1), hl]
  simp only [Res.ofOption, Res.bind_ok]
  rw [zpow_neg]
  rfl

/-- Zero padded fixed-point text. -/
theorem parse_fmtZero (w p : Nat) (q : ℚ) : parseFloatField (fmtZero w p q) =
    .ok (.num ((roundHalfEven (q * 10 ^ p) : ℚ) / 10 ^ p)) := by
  unfold fmtZero
  obtain ⟨a, b, h, ha, hne, hb, hl, hv⟩ := fixedStr_shape p (roundHalfEven (q * 10 ^ p))
  have e : padLeft '0' w (fixedStr p (roundHalfEven (q * 10 ^ p))) =
      (List.replicate (w - (fixedStr p (roundHalfEven (q * 10 ^ p))).length) '0' ++ a) ++ '.' :: b := by
    unfold padLeft
    rw [List.append_assoc, ← h]
  rw [e]
  generalize hA : List.replicate (w - (fixedStr p (roundHalfEven (q * 10 ^ p))).length) '0' ++ a = A
  have hAd : A.all Char.isDigit = true := by
    rw [← hA, List.all_append, ha, Bool.and_true, List.all_eq_true]
    intro c hc
    rw [List.eq_of_mem_replicate hc]; decide
  have hAne : A ≠ [] := by rw [← hA]; simp [hne]
  have hAv : digitsVal (A ++ b) = roundHalfEven (q * 10 ^ p) := by
    rw [← hA, List.append_assoc, replicate_zero_digits, hv]
  have ht : Tight (A ++ '.' :: b) := tight_of_all (by
    intro c hc
    rcases List.mem_append.mp hc with hc | hc
    · exact isDigit_not_ws (List.all_eq_true.mp hAd c hc)
    · rcases List.mem_cons.mp hc with rfl | hc
      · decide
      · exact isDigit_not_ws (List.all_eq_true.mp hb c hc))
  unfold parseFloatField
  have hu := parseUFloat_point hAd hb (fun h => hAne h.1)
  rw [hAv, hl] at hu
  rw [trim_tight ht, parseFloat_pos hu (by
    obtain ⟨c, t, rfl, hc⟩ := digits_head hAd hAne
    intro d hd
    simp at hd; subst hd
    constructor <;> (rintro rfl; simp at hc))]
  rfl

theorem fmtZero_ascii (w p : Nat) (q : ℚ) : isAscii (fmtZero w p q) := by
  unfold fmtZero
  refine padLeft_ascii ?_ _ (by decide) _
  intro c hc
  exact (isDigit_point (fixedStr_chars _ _ c hc)).1

/-! ### Columns of the two lines -/

theorem cols1 {cat intl yy day nd ndd bs el cs : Str} {cls : Char}
    (h1 : cat.length = 5) (h2 : intl.length = 8) (h3 : yy.length = 2) (h4 : day.length = 12)
    (h5 : nd.length = 10) (h6 : ndd.length = 8) (h7 : bs.length = 8) (h8 : el.length = 4)
    {L : Str} (hL : L = '1' :: ' ' :: cat ++ (cls :: ' ' :: intl) ++ (' ' :: yy) ++ day ++ (' ' :: nd) ++
      (' ' :: ndd) ++ (' ' :: bs) ++ (' ' :: '0' :: ' ' :: el) ++ cs) (ha : isAscii L) :
    byteAt L 0 = some 49 ∧ slice L 2 7 = some cat ∧ byteAt L 7 = some (UInt8.ofNat cls.toNat) ∧
    slice L 9 17 = some intl ∧
    slice L 18 20 = some yy ∧ slice L 20 32 = some day ∧ slice L 33 43 = some nd ∧
    slice L 44 52 = some ndd ∧ slice L 53 61 = some bs ∧ slice L 64 68 = some el := by
  refine ⟨?_, ?_, ?_, ?_, ?_, ?_, ?_, ?_, ?_, ?_⟩
  · rw [hL]; exact byteAt_cons_zero (by decide) _
  · have e : L = ['1', ' '] ++ (cat ++ ((cls :: ' ' :: intl) ++ (' ' :: yy) ++ day ++ (' ' :: nd) ++
      (' ' :: ndd) ++ (' ' :: bs) ++ (' ' :: '0' :: ' ' :: el) ++ cs)) := by rw [hL]; simp
    rw [e] at ha ⊢; exact slice_mid ha (by simp) (by omega)
  · have e : L = ('1' :: ' ' :: cat) ++ cls :: (' ' :: intl ++ (' ' :: yy) ++ day ++ (' ' :: nd) ++
      (' ' :: ndd) ++ (' ' :: bs) ++ (' ' :: '0' :: ' ' :: el) ++ cs) := by rw [hL]; simp
    unfold byteAt
    rw [utf8_ascii ha, e, List.map_append, List.getElem?_append_right (by simp; omega)]
    simp [h1]
  · have e : L = ('1' :: ' ' :: cat ++ [cls, ' ']) ++ (intl ++ ((' ' :: yy) ++ day ++ (' ' :: nd) ++
      (' ' :: ndd) ++ (' ' :: bs) ++ (' ' :: '0' :: ' ' :: el) ++ cs)) := by rw [hL]; simp
    rw [e] at ha ⊢; exact slice_mid ha (by simp; omega) (by omega)
  · have e : L = ('1' :: ' ' :: cat ++ (cls :: ' ' :: intl) ++ [' ']) ++ (yy ++ (day ++ (' ' :: nd) ++
      (' ' :: ndd) ++ (' ' :: bs) ++ (' ' :: '0' :: ' ' :: el) ++ cs)) := by rw [hL]; simp
    rw [e] at ha ⊢; exact slice_mid ha (by simp; omega) (by omega)
  · have e : L = ('1' :: ' ' :: cat ++ (cls :: ' ' :: intl) ++ (' ' :: yy)) ++ (day ++ ((' ' :: nd) ++
      (' ' :: ndd) ++ (' ' :: bs) ++ (' ' :: '0' :: ' ' :: el) ++ cs)) := by rw [hL]; simp
    rw [e] at ha ⊢; exact slice_mid ha (by simp; omega) (by omega)
  · have e : L = ('1' :: ' ' :: cat ++ (cls :: ' ' :: intl) ++ (' ' :: yy) ++ day ++ [' ']) ++ (nd ++
      ((' ' :: ndd) ++ (' ' :: bs) ++ (' ' :: '0' :: ' ' :: el) ++ cs)) := by rw [hL]; simp
    rw [e] at ha ⊢; exact slice_mid ha (by simp; omega) (by omega)
  · have e : L = ('1' :: ' ' :: cat ++ (cls :: ' ' :: intl) ++ (' ' :: yy) ++ day ++ (' ' :: nd) ++ [' ']) ++
      (ndd ++ ((' ' :: bs) ++ (' ' :: '0' :: ' ' :: el) ++ cs)) := by rw [hL]; simp
    rw [e] at ha ⊢; exact slice_mid ha (by simp; omega) (by omega)
  · have e : L = ('1' :: ' ' :: cat ++ (cls :: ' ' :: intl) ++ (' ' :: yy) ++ day ++ (' ' :: nd) ++
      (' ' :: ndd) ++ [' ']) ++ (bs ++ ((' ' :: '0' :: ' ' :: el) ++ cs)) := by rw [hL]; simp
    rw [e] at ha ⊢; exact slice_mid ha (by simp; omega) (by omega)
  · have e : L = ('1' :: ' ' :: cat ++ (cls :: ' ' :: intl) ++ (' ' :: yy) ++ day ++ (' ' :: nd) ++
      (' ' :: ndd) ++ (' ' :: bs) ++ [' ', '0', ' ']) ++ (el ++ cs) := by rw [hL]; simp
    rw [e] at ha ⊢; exact slice_mid ha (by simp; omega) (by omega)

theorem cols2 {cat inc raan ecc argp m n rev cs : Str}
    (h1 : cat.length = 5) (h2 : inc.length = 8) (h3 : raan.length = 8) (h4 : ecc.length = 7)
    (h5 : argp.length = 8) (h6 : m.length = 8) (h7 : n.length = 11) (h8 : rev.length = 5)
    {L : Str} (hL : L = '2' :: ' ' :: cat ++ (' ' :: inc) ++ (' ' :: raan) ++ (' ' :: ecc) ++ (' ' :: argp) ++
      (' ' :: m) ++ (' ' :: n) ++ rev ++ cs) (ha : isAscii L) :
    byteAt L 0 = some 50 ∧ slice L 2 7 = some cat ∧ slice L 8 16 = some inc ∧
    slice L 17 25 = some raan ∧ slice L 26 33 = some ecc ∧ slice L 34 42 = some argp ∧
    slice L 43 51 = some m ∧ slice L 52 63 = some n ∧ slice L 63 68 = some rev := by
  refine ⟨?_, ?_, ?_, ?_, ?_, ?_, ?_, ?_, ?_⟩
  · rw [hL]; exact byteAt_cons_zero (by decide) _
  · have e : L = ['2', ' '] ++ (cat ++ ((' ' :: inc) ++ (' ' :: raan) ++ (' ' :: ecc) ++ (' ' :: argp) ++
      (' ' :: m) ++ (' ' :: n) ++ rev ++ cs)) := by rw [hL]; simp
    rw [e] at ha ⊢; exact slice_mid ha (by simp) (by omega)
  · have e : L = ('2' :: ' ' :: cat ++ [' ']) ++ (inc ++ ((' ' :: raan) ++ (' ' :: ecc) ++ (' ' :: argp) ++
      (' ' :: m) ++ (' ' :: n) ++ rev ++ cs)) := by rw [hL]; simp
    rw [e] at ha ⊢; exact slice_mid ha (by simp; omega) (by omega)
  · have e : L = ('2' :: ' ' :: cat ++ (' ' :: inc) ++ [' ']) ++ (raan ++ ((' ' :: ecc) ++ (' ' :: argp) ++
      (' ' :: m) ++ (' ' :: n) ++ rev ++ cs)) := by rw [hL]; simp
    rw [e] at ha ⊢; exact slice_mid ha (by simp; omega) (by omega)
  · have e : L = ('2' :: ' ' :: cat ++ (' ' :: inc) ++ (' ' :: raan) ++ [' ']) ++ (ecc ++ ((' ' :: argp) ++
      (' ' :: m) ++ (' ' :: n) ++ rev ++ cs)) := by rw [hL]; simp
    rw [e] at ha ⊢; exact slice_mid ha (by simp; omega) (by omega)
  · have e : L = ('2' :: ' ' :: cat ++ (' ' :: inc) ++ (' ' :: raan) ++ (' ' :: ecc) ++ [' ']) ++ (argp ++
      ((' ' :: m) ++ (' ' :: n) ++ rev ++ cs)) := by rw [hL]; simp
    rw [e] at ha ⊢; exact slice_mid ha (by simp; omega) (by omega)
  · have e : L = ('2' :: ' ' :: cat ++ (' ' :: inc) ++ (' ' :: raan) ++ (' ' :: ecc) ++ (' ' :: argp) ++ [' ']) ++
      (m ++ ((' ' :: n) ++ rev ++ cs)) := by rw [hL]; simp
    rw [e] at ha ⊢; exact slice_mid ha (by simp; omega) (by omega)
  · have e : L = ('2' :: ' ' :: cat ++ (' ' :: inc) ++ (' ' :: raan) ++ (' ' :: ecc) ++ (' ' :: argp) ++
      (' ' :: m) ++ [' ']) ++ (n ++ (rev ++ cs)) := by rw [hL]; simp
    rw [e] at ha ⊢; exact slice_mid ha (by simp; omega) (by omega)
  · have e : L = ('2' :: ' ' :: cat ++ (' ' :: inc) ++ (' ' :: raan) ++ (' ' :: ecc) ++ (' ' :: argp) ++
      (' ' :: m) ++ (' ' :: n)) ++ (rev ++ cs) := by rw [hL]; simp
    rw [e] at ha ⊢; exact slice_mid ha (by simp; omega) (by omega)

/-! ### The checksum digit -/

theorem computeChecksum_lt (s : Str) : computeChecksum s < 10 := Nat.mod_lt _ (by omega)

theorem withChecksum_eq (s : Str) : withChecksum s = s ++ [digitChar (computeChecksum s)] := by
  unfold withChecksum
  rw [natStr, if_pos (computeChecksum_lt s)]

theorem withChecksum_valid {s : Str} (ha : isAscii s) (hl : s.length = 68) :
    isAscii (withChecksum s) ∧ blen (withChecksum s) = 69 ∧ validateChecksum (withChecksum s) = .ok () := by
  rw [withChecksum_eq]
  have hlt := computeChecksum_lt s
  have ha' : isAscii (s ++ [digitChar (computeChecksum s)]) := by
    rw [isAscii_append]
    refine ⟨ha, ?_⟩
    intro c hc
    simp at hc; subst hc
    exact digitChar_ascii hlt
  have hb : blen (s ++ [digitChar (computeChecksum s)]) = 69 := by
    rw [blen_ascii ha']; simp [hl]
  refine ⟨ha', hb, ?_⟩
  rw [validate_iff]
  refine ⟨hb, s, _, rfl, ?_⟩
  have h1 := isDigit_range.mp (digitChar_isDigit hlt)
  have h2 := digitChar_val hlt
  unfold digitVal at h2
  refine ⟨h1.1, h1.2, ?_⟩
  rw [h2, computeChecksum_eq]

/-! ### Epoch -/

theorem dayFull_eq (dt : DateTime) : dayFull dt = dt.ordinal + (dt.nanos : ℚ) / 86400000000000 := by
  unfold dayFull
  have := Nat.div_add_mod dt.nanos 1000000000
  have h : (dt.nanos : ℚ) = 1000000000 * (dt.nanos / 1000000000 : ℕ) + (dt.nanos % 1000000000 : ℕ) := by
    exact_mod_cast this.symm
  rw [h]
  ring

theorem floor_div_nat (k : ℕ) : ⌊(k : ℚ) / 10 ^ 8⌋.toNat = k / 10 ^ 8 := by
  have : ⌊(k : ℚ) / 10 ^ 8⌋ = ((k / 10 ^ 8 : ℕ) : ℤ) := by
    have h1 := Nat.div_add_mod k (10 ^ 8)
    have h2 := Nat.mod_lt k (show 10 ^ 8 > 0 by norm_num)
    generalize k / 10 ^ 8 = d at *
    generalize k % 10 ^ 8 = r at *
    have h3 : (k : ℚ) = 10 ^ 8 * d + r := by exact_mod_cast h1.symm
    have h4 : (r : ℚ) < 10 ^ 8 := by exact_mod_cast h2
    have h5 : (0 : ℚ) ≤ r := Nat.cast_nonneg r
    rw [Int.floor_eq_iff, h3, Int.cast_natCast]
    constructor
    · rw [le_div_iff₀ (by norm_num)]; linarith
    · rw [div_lt_iff₀ (by norm_num)]; linarith
  rw [this]; rfl

/-- Reading `k` hundred-millionths of a day. -/
theorem epoch_of_grid (utcOk : DateTime → Bool) (year : ℤ) (k : ℕ) (h1 : 10 ^ 8 ≤ k)
    (h2 : k < (yearLen year + 1) * 10 ^ 8)
    (hu : utcOk ⟨year, k / 10 ^ 8, k % 10 ^ 8 * 864000⟩ = true) :
    epochFromYearDoy utcOk year (.num ((k : ℚ) / 10 ^ 8)) =
      .ok ⟨year, k / 10 ^ 8, k % 10 ^ 8 * 864000⟩ := by
  have hyl : yearLen year ≤ 366 := by unfold yearLen; split <;> omega
  have hkq : (k : ℚ) < 367 * 10 ^ 8 := by
    have : k < 367 * 10 ^ 8 := lt_of_lt_of_le h2 (Nat.mul_le_mul_right _ (by omega))
    exact_mod_cast this
  have hkq1 : (10 : ℚ) ^ 8 ≤ k := by exact_mod_cast h1
  unfold epochFromYearDoy
  dsimp only
  rw [if_pos ⟨by rw [le_div_iff₀ (by norm_num)]; linarith, by rw [div_lt_iff₀ (by norm_num)]; linarith⟩]
  rw [floor_div_nat]
  have hd1 : 1 ≤ k / 10 ^ 8 := (Nat.one_le_div_iff (by norm_num)).mpr h1
  have hd2 : k / 10 ^ 8 ≤ yearLen year := by
    rw [← Nat.lt_succ_iff, Nat.div_lt_iff_lt_mul (by norm_num)]; exact h2
  rw [if_pos ⟨hd1, hd2⟩]
  have hn : ((k : ℚ) / 10 ^ 8 - ((k / 10 ^ 8 : ℕ) : ℚ)) * 86400 * 10 ^ 9 = ((k % 10 ^ 8 * 864000 : ℕ) : ℚ) := by
    have h3 : (k : ℚ) = 10 ^ 8 * (k / 10 ^ 8 : ℕ) + (k % 10 ^ 8 : ℕ) := by
      exact_mod_cast (Nat.div_add_mod k (10 ^ 8)).symm
    rw [Nat.cast_mul]
    rw [eq_sub_of_add_eq' h3.symm]
    push_cast
    ring
  rw [hn, roundHalfUp_natCast]
  have hlt := Nat.mod_lt k (show 10 ^ 8 > 0 by norm_num)
  have : k % 10 ^ 8 * 864000 < 86400000000000 := by
    calc _ < 10 ^ 8 * 864000 := Nat.mul_lt_mul_of_pos_right hlt (by norm_num)
      _ = _ := by norm_num
  unfold addNanos
  rw [if_pos this, if_pos hu]

theorem asChar_ascii (c : Classification) : c.asChar.toNat < 128 := by cases c <;> decide

theorem ofByte_asChar (c : Classification) :
    Classification.ofByte (UInt8.ofNat c.asChar.toNat) = .ok c := by cases c <;> decide

end Verif.Tle
