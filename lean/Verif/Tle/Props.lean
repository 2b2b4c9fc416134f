import Verif.Tle.Write
import Mathlib.Data.List.Induction

/-!
Properties C03-C08: the TLE reader and writer.
-/
namespace Verif.Tle.Props
open Verif.Text

/-! ### C03 checksum -/

/-- A line is accepted exactly when it has 69 bytes and its last character is the digit that the
modulo-10 rule assigns to the characters before it. All Unicode strings. -/
theorem checksum_accept_iff (line : Str) :
    validateChecksum line = .ok () ↔ blen line = 69 ∧ Spec.ChecksumOK line := validate_iff line

/-- On ASCII text the size condition is the number of characters. -/
theorem checksum_accept_ascii (line : Str) (h : isAscii line) :
    validateChecksum line = .ok () ↔ line.length = 69 ∧ Spec.ChecksumOK line := by
  rw [validate_iff, blen_ascii h]

theorem weight_digit_ne {c d : Char} (hc : c.isDigit = true) (hd : d.isDigit = true) (h : c ≠ d) :
    Spec.weight c ≠ Spec.weight d ∧ Spec.weight c < 10 ∧ Spec.weight d < 10 := by
  have a := isDigit_range.mp hc
  have b := isDigit_range.mp hd
  have : c.toNat ≠ d.toNat := fun h' => h (char_eq_of_toNat h')
  unfold Spec.weight
  rw [if_pos a, if_pos b]
  omega

theorem sum_set (l : List Char) (i : Nat) (c : Char) (h : i < l.length) :
    ((l.set i c).map Spec.weight).sum + Spec.weight l[i] = (l.map Spec.weight).sum + Spec.weight c := by
  induction l generalizing i with
  | nil => simp at h
  | cons a as ih =>
    cases i with
    | zero => simp; omega
    | succ i =>
      have := ih i (by simpa using h)
      simp only [List.set_cons_succ, List.map_cons, List.sum_cons, List.getElem_cons_succ]
      omega

/-- Replacing one digit of an accepted line by another digit, in any column, makes it rejected. -/
theorem single_digit_corruption_detected (line : Str) (i : Nat) (c : Char) (hi : i < line.length)
    (hv : validateChecksum line = .ok ()) (hold : line[i].isDigit = true) (hnew : c.isDigit = true)
    (hne : c ≠ line[i]) : validateChecksum (line.set i c) ≠ .ok () := by
  intro h2
  rw [validate_iff] at hv h2
  obtain ⟨_, body, d, rfl, h1, h2', h3⟩ := hv
  obtain ⟨_, body', d', he, k1, k2, k3⟩ := h2
  by_cases hb : i < body.length
  · rw [List.set_append_left _ _ hb] at he
    obtain ⟨e1, e2⟩ := List.append_inj' he rfl
    simp at e2; subst e2
    rw [← e1] at k3
    have hs := sum_set body i c hb
    have hg : (body ++ [d])[i] = body[i] := List.getElem_append_left hb
    rw [hg] at hold hne
    obtain ⟨w1, w2, w3⟩ := weight_digit_ne hnew hold hne
    omega
  · have hl : (body ++ [d]).length = body.length + 1 := by simp
    have hi' : i = body.length := by omega
    subst hi'
    rw [List.set_append_right _ _ (le_refl _)] at he
    simp only [Nat.sub_self, List.set_cons_zero] at he
    obtain ⟨e1, e2⟩ := List.append_inj' he rfl
    simp at e2; subst e2; subst e1
    have hg : (body ++ [d])[body.length] = d := by simp
    rw [hg] at hne
    exact hne (char_eq_of_toNat (by omega))

/-- The ISS line of the crate's documentation is accepted (hypotheses above are met). -/
example : validateChecksum
    "1 25544U 98067A   08264.51782528 -.00002182  00000-0 -11606-4 0  2927".toList = .ok () := by
  decide +kernel

/-! ### C04 Alpha-5 -/

/-- The accepted range is exactly 0..339999. -/
theorem alpha5_accepted_iff (n : Nat) : (∃ f, formatAlpha5 n = .ok f) ↔ n < 340000 := by
  constructor
  · rintro ⟨f, hf⟩
    by_contra hc
    unfold formatAlpha5 at hf
    rw [if_neg (by omega), if_pos (by omega)] at hf
    cases hf
  · intro h
    obtain ⟨c, _, hf⟩ := formatAlpha5_spec h
    exact ⟨_, hf⟩

/-- Numbers out of range give the error value, never a panic. -/
theorem alpha5_rejects (n : Nat) (h : 340000 ≤ n) : formatAlpha5 n = .err .invalidAlpha5 := by
  unfold formatAlpha5
  rw [if_neg (by omega), if_pos h]

/-- The written field is the leading symbol of the ten-thousands and four digits. -/
theorem alpha5_field (n : Nat) (f : Str) (h : formatAlpha5 n = .ok f) : Spec.Alpha5Field n f := by
  have hn := (alpha5_accepted_iff n).mp ⟨f, h⟩
  obtain ⟨c, hc, hf⟩ := formatAlpha5_spec hn
  rw [h] at hf
  cases hf
  exact ⟨c, hc, by rw [digitsW_four']⟩

/-- Five characters, no I or O. -/
theorem alpha5_shape (n : Nat) (f : Str) (h : formatAlpha5 n = .ok f) :
    f.length = 5 ∧ 'I' ∉ f ∧ 'O' ∉ f := by
  have hn := (alpha5_accepted_iff n).mp ⟨f, h⟩
  obtain ⟨c, hc, hf⟩ := formatAlpha5_spec hn
  rw [h] at hf
  cases hf
  obtain ⟨c', h1, _, _, _, hI, hO, _⟩ := alphabet_reader ⟨n / 10000, by omega⟩
  rw [hc] at h1; cases h1
  have hd := List.all_eq_true.mp (digitsW_digits 4 (n % 10000)).1
  refine ⟨by simp [digitsW_length], ?_, ?_⟩
  · intro hm
    rcases List.mem_cons.mp hm with hm | hm
    · exact hI hm.symm
    · exact absurd (hd _ hm) (by decide)
  · intro hm
    rcases List.mem_cons.mp hm with hm | hm
    · exact hO hm.symm
    · exact absurd (hd _ hm) (by decide)

/-- Reading the written field gives the number back. -/
theorem alpha5_round_trip (n : Nat) (f : Str) (h : formatAlpha5 n = .ok f) : parseSat f = .ok n := by
  have hn := (alpha5_accepted_iff n).mp ⟨f, h⟩
  obtain ⟨c, hc, hf⟩ := formatAlpha5_spec hn
  rw [h] at hf
  cases hf
  exact parseSat_field hn hc

/-- Distinct numbers have distinct fields. -/
theorem alpha5_injective (m n : Nat) (f : Str) (hm : formatAlpha5 m = .ok f)
    (hn : formatAlpha5 n = .ok f) : m = n := by
  have h1 := alpha5_round_trip m f hm
  have h2 := alpha5_round_trip n f hn
  rw [h1] at h2
  exact (Res.ok.inj h2)

theorem digitsVal_lt (s : Str) (h : s.all Char.isDigit = true) : digitsVal s < 10 ^ s.length := by
  induction s using List.reverseRecOn with
  | nil => simp [digitsVal]
  | append_singleton s c ih =>
    rw [List.all_append, Bool.and_eq_true] at h
    have hc : c.isDigit = true := by simpa using h.2
    have := ih h.1
    have hd := digitVal_lt hc
    rw [digitsVal_append]
    simp only [digitsVal, List.foldl_cons, List.foldl_nil, List.length_append, List.length_cons,
      List.length_nil, pow_succ] at *
    omega

theorem parseDigits_bound {s : Str} {n : Nat} (h : parseDigits s = some n) :
    s.all Char.isDigit = true ∧ n = digitsVal s := by
  unfold parseDigits at h
  split at h
  · rename_i hh; exact ⟨hh.2, (Option.some.inj h).symm⟩
  · cases h

theorem parseUInt_bound {s : Str} {m n : Nat} (h : parseUInt m s = some n) : n < 10 ^ s.length := by
  unfold parseUInt at h
  simp only [Option.bind_eq_some_iff] at h
  obtain ⟨k, hk, hle⟩ := h
  have hkn : k = n := by
    split at hle
    · exact Option.some.inj hle
    · cases hle
  subst hkn
  split at hk
  · rename_i t
    obtain ⟨h1, h2⟩ := parseDigits_bound hk
    rw [h2]
    exact lt_of_lt_of_le (digitsVal_lt _ h1) (Nat.pow_le_pow_right (by omega) (by simp))
  · obtain ⟨h1, h2⟩ := parseDigits_bound hk
    rw [h2]; exact digitsVal_lt _ h1

theorem length_le_blen (s : Str) : s.length ≤ blen s := by
  induction s with
  | nil => simp
  | cons c cs ih =>
    have := utf8Size_pos' c
    simp only [blen, List.map_cons, List.sum_cons, List.length_cons] at ih ⊢
    omega

/-- Whatever text is read, the number is in the writable range. -/
theorem alpha5_reader_range (f : Str) (n : Nat) (h : parseSat f = .ok n) : n < 340000 := by
  unfold parseSat at h
  dsimp only at h
  split at h
  · cases h
  rename_i hl
  have hlen : blen (trimStart f) ≤ 5 := by
    by_contra hc; exact hl (Or.inr (by omega))
  generalize trimStart f = s at *
  have hsl := length_le_blen s
  cases hb : byteAt s 0 with
  | none => rw [hb] at h; cases h
  | some b =>
    rw [hb] at h
    simp only [Res.orPanic, Res.bind_ok] at h
    split at h
    · unfold Res.ofOption at h
      split at h
      · rename_i k hk
        cases h
        have := parseUInt_bound hk
        have : (10 : ℕ) ^ s.length ≤ 10 ^ 5 := Nat.pow_le_pow_right (by omega) (by omega)
        omega
      · cases h
    · split at h
      · cases h
      · rename_i v hv
        cases hd : dropB s 1 with
        | none => rw [hd] at h; cases h
        | some t =>
          rw [hd] at h
          simp only [Res.bind_ok] at h
          split at h
          · cases h
          · rename_i hh
            have htl : blen t = 4 := by
              by_contra hc; exact hh (Or.inl hc)
            unfold Res.ofOption at h
            split at h
            · rename_i k hk
              simp only [Res.bind_ok] at h
              have := parseUInt_bound hk
              have h4 : t.length ≤ 4 := by have := length_le_blen t; omega
              have : (10 : ℕ) ^ t.length ≤ 10 ^ 4 := Nat.pow_le_pow_right (by omega) h4
              have hv33 : v ≤ 33 := by
                unfold letterValue at hv
                split at hv
                · cases hv; omega
                · split at hv
                  · cases hv; omega
                  · split at hv
                    · cases hv; omega
                    · cases hv
              have := Res.ok.inj h
              omega
            · cases h

example : formatAlpha5 270001 = .ok "T0001".toList ∧ parseSat "T0001".toList = .ok 270001 ∧
    formatAlpha5 339999 = .ok "Z9999".toList := by
  refine ⟨?_, by decide +kernel, ?_⟩
  · obtain ⟨c, hc, hf⟩ := formatAlpha5_spec (n := 270001) (by norm_num)
    rw [hf]
    have : c = 'T' := by
      have h : Spec.alpha5Alphabet[270001 / 10000]? = some 'T' := by decide +kernel
      rw [h] at hc; exact (Option.some.inj hc).symm
    rw [this]; decide +kernel
  · obtain ⟨c, hc, hf⟩ := formatAlpha5_spec (n := 339999) (by norm_num)
    rw [hf]
    have : c = 'Z' := by
      have h : Spec.alpha5Alphabet[339999 / 10000]? = some 'Z' := by decide +kernel
      rw [h] at hc; exact (Option.some.inj hc).symm
    rw [this]; decide +kernel

/-! ### C05 two-digit years -/

/-- The expansion is the one year of 1957..2056 congruent to the two digits modulo 100. -/
theorem expand_year_unique (yy : Int) (h0 : 0 ≤ yy) (h1 : yy ≤ 99) (y : Int) :
    expandYear yy = y ↔ 1957 ≤ y ∧ y ≤ 2056 ∧ y % 100 = yy := by
  unfold expandYear
  split <;> omega

/-- Writing the year modulo 100 and reading it back is the identity on 1957..2056; the written
digits are the expression of builder.rs:386. -/
theorem year_round_trip (y : Int) (h0 : 1957 ≤ y) (h1 : y ≤ 2056) :
    expandYear ((y.tmod 100 + 100).tmod 100) = y := by
  have e1 : y.tmod 100 = y % 100 := Int.tmod_eq_emod_of_nonneg (by omega)
  have e2 : (y % 100 + 100).tmod 100 = (y % 100 + 100) % 100 := Int.tmod_eq_emod_of_nonneg (by omega)
  rw [e1, e2]
  unfold expandYear
  split <;> omega

example : expandYear 57 = 1957 ∧ expandYear 56 = 2056 ∧ expandYear 0 = 2000 := by decide

/-! ### C06 assumed-decimal fields -/

/-- The written field has its eight columns exactly for the values that fit: zero, or a one-digit
exponent with a mantissa that does not round up to 1. -/
theorem assumed_width_iff (v : ℚ) : (formatAssumed v).length = 8 ↔ Spec.AssumedFits v :=
  formatAssumed_length v

/-- For the values that fit, reading the written field gives the value rounded to five significant
digits. Missing from the full property: values that do not fit (see the two theorems below). -/
theorem assumed_round_trip_partial (v : ℚ) (h : Spec.AssumedFits v) :
    ∃ w, parseAssumed (formatAssumed v) = .ok w ∧ Spec.FiveDigits v w :=
  ⟨_, parse_formatAssumed h, assumedValue_spec v⟩

/-- A mantissa that rounds up to 1 is written with six digits and read back ten times too small:
0.999999 becomes " 100000+0", which reads as 0.1. -/
theorem assumed_rounding_overflow :
    formatAssumed (999999 / 1000000) = " 100000+0".toList ∧
    parseAssumed (formatAssumed (999999 / 1000000)) = .ok (1 / 10) := by
  have hv : (999999 / 1000000 : ℚ) ≠ 0 := by norm_num
  have he : assumedExp (999999 / 1000000) = 0 := by
    apply assumedExp_unique
    · rw [abs_of_pos (by norm_num)]; norm_num
    · rw [abs_of_pos (by norm_num)]; norm_num
  have hd : assumedDigits (999999 / 1000000) = 100000 := by
    unfold assumedDigits roundHalfUp
    rw [he, abs_of_pos (by norm_num)]
    norm_num
    rfl
  have hf : formatAssumed (999999 / 1000000) = " 100000+0".toList := by
    rw [formatAssumed_eq hv, he, hd, if_neg (by norm_num)]
    have h1 : natStr 100000 = "100000".toList := by
      simp [natStr, digitChar]
    have h0 : natStr (Int.natAbs 0) = "0".toList := by
      simp [natStr, digitChar]
    rw [h1, h0]
    decide
  refine ⟨hf, ?_⟩
  rw [hf]
  have := parseAssumed_shape (neg := false) (m := "100000".toList) (e := "0".toList) (c := '+')
    (by decide) (by decide) (by decide) (Or.inr rfl) (by decide) (by decide) (by decide)
  have hs : " 100000+0".toList = ' ' :: "100000".toList ++ '+' :: "0".toList := by decide
  rw [hs]
  simp only [Bool.false_eq_true, if_false] at this
  rw [this]
  have hd1 : digitsVal "100000".toList = 100000 := by decide
  have hd2 : digitsVal "0".toList = 0 := by decide
  have hl : ("100000".toList).length = 6 := by decide
  rw [hd1, hd2, hl]
  norm_num

/-- Every value that does not fit breaks the eight columns. -/
theorem assumed_overflow (v : ℚ) (h : ¬ Spec.AssumedFits v) : (formatAssumed v).length ≠ 8 :=
  fun h' => h ((formatAssumed_length v).mp h')

/-- A drag term of the ISS set fits, and 10^-11 does not. -/
example : Spec.AssumedFits (-11606 / 10 ^ 9) ∧ ¬ Spec.AssumedFits (1 / 10 ^ 11) := by
  constructor
  · refine Or.inr ⟨-4, by norm_num, by norm_num, ?_, ?_⟩
    · rw [abs_of_neg (by norm_num)]; norm_num
    · rw [abs_of_neg (by norm_num)]; norm_num
  · intro h
    have hv : (1 / 10 ^ 11 : ℚ) ≠ 0 := by norm_num
    have := (fits_iff hv).mp h
    have he : assumedExp (1 / 10 ^ 11) = -10 := by
      apply assumedExp_unique
      · rw [abs_of_pos (by norm_num)]; norm_num
      · rw [abs_of_pos (by norm_num)]; norm_num
    omega

/-! ### C07 writing and reading a whole element set -/

/-- `t'` is the element set `t` to the precision printed in a TLE. -/
structure Recovers (t : TLE ℚ) (t' : TLE F64) : Prop where
  norad : t'.norad = t.norad
  classification : t'.classification = t.classification
  intl : t'.intl = t.intl
  elset : t'.elset = t.elset
  rev : t'.rev = t.rev
  year : t'.epoch.year = t.epoch.year
  /-- nearest hundred-millionth of a day (864 000 ns) -/
  epoch : |((t'.epoch.ordinal : ℤ) * 86400000000000 + t'.epoch.nanos) -
      ((t.epoch.ordinal : ℤ) * 86400000000000 + t.epoch.nanos)| ≤ 432000
  nDot : ∃ x, t'.nDot = .num x ∧ |x - t.nDot| ≤ 1 / 2 / 10 ^ 8
  nDdot : Spec.FiveDigits t.nDdot t'.nDdot
  bstar : Spec.FiveDigits t.bstar t'.bstar
  inclination : ∃ x, t'.inclination = .num x ∧ |x - t.inclination| ≤ 1 / 2 / 10 ^ 4
  raan : ∃ x, t'.raan = .num x ∧ |x - t.raan| ≤ 1 / 2 / 10 ^ 4
  ecc : |t'.ecc - t.ecc| ≤ 1 / 2 / 10 ^ 7
  argp : ∃ x, t'.argp = .num x ∧ |x - t.argp| ≤ 1 / 2 / 10 ^ 4
  meanAnomaly : ∃ x, t'.meanAnomaly = .num x ∧ |x - t.meanAnomaly| ≤ 1 / 2 / 10 ^ 4
  meanMotion : ∃ x, t'.meanMotion = .num x ∧ |x - t.meanMotion| ≤ 1 / 2 / 10 ^ 8

theorem signedValue_close (v : ℚ) : |signedValue v - v| ≤ 1 / 2 / 10 ^ 8 := by
  have h := roundHalfUp_spec (|v| * 10 ^ 8) (by positivity)
  unfold signedValue
  generalize (roundHalfUp (|v| * 10 ^ 8) : ℚ) = k at *
  rw [abs_le] at h ⊢
  split
  · rename_i hn
    rw [abs_of_neg hn] at h
    constructor <;> linarith [h.1, h.2]
  · rename_i hn
    rw [abs_of_nonneg (not_lt.mp hn)] at h
    constructor <;> linarith [h.1, h.2]

theorem ecc_close {e : ℚ} (h0 : 0 ≤ e) : |(eccScaled e : ℚ) / 10 ^ 7 - e| ≤ 1 / 2 / 10 ^ 7 := by
  have h := roundHalfUp_spec (e * 10 ^ 7) (by positivity)
  unfold eccScaled
  rw [if_neg (not_lt.mpr h0)]
  generalize (roundHalfUp (e * 10 ^ 7) : ℚ) = k at *
  rw [abs_le] at h ⊢
  constructor <;> linarith [h.1, h.2]

theorem gridSplit (k : ℕ) : ((k / 10 ^ 8 : ℕ) : ℤ) * 86400000000000 + ((k % 10 ^ 8 * 864000 : ℕ) : ℤ) = (k : ℤ) * 864000 := by
  have h1 := Nat.div_add_mod k (10 ^ 8)
  generalize k / 10 ^ 8 = d at *
  generalize k % 10 ^ 8 = r at *
  rw [← h1]
  push_cast
  ring
theorem gridClose (k o n : ℕ) (h1 : -(1/2) ≤ (k : ℚ) - (o + (n : ℚ) / 86400000000000) * 10 ^ 8)
   (h2 : (k : ℚ) - (o + (n : ℚ) / 86400000000000) * 10 ^ 8 ≤ 1 / 2) :
   |(k : ℤ) * 864000 - ((o : ℤ) * 86400000000000 + n)| ≤ 432000 := by
  rw [abs_le]
  have h3 : (k : ℚ) * 864000 - (o * 86400000000000 + n) ≤ 432000 := by linarith
  have h4 : -432000 ≤ (k : ℚ) * 864000 - (o * 86400000000000 + n) := by linarith
  constructor
  · have : ((-432000 : ℤ) : ℚ) ≤ ((k : ℤ) * 864000 - ((o : ℤ) * 86400000000000 + n) : ℤ) := by
      push_cast; exact h4
    exact Int.cast_le.mp this
  · have : (((k : ℤ) * 864000 - ((o : ℤ) * 86400000000000 + n) : ℤ) : ℚ) ≤ ((432000 : ℤ) : ℚ)  := by
      push_cast; exact h3
    exact Int.cast_le.mp this

theorem epochGrid_close (t : TLE ℚ) :
    |((epochGrid t / 10 ^ 8 : ℕ) : ℤ) * 86400000000000 + ((epochGrid t % 10 ^ 8 * 864000 : ℕ) : ℤ) -
      ((t.epoch.ordinal : ℤ) * 86400000000000 + t.epoch.nanos)| ≤ 432000 := by
  have hs := roundHalfEven_spec (dayFull t.epoch * 10 ^ 8) (by rw [dayFull_eq]; positivity)
  have hs' : |(epochGrid t : ℚ) - dayFull t.epoch * 10 ^ 8| ≤ 1 / 2 := hs
  rw [dayFull_eq, abs_le] at hs'
  rw [gridSplit]
  exact gridClose _ _ _ hs'.1 hs'.2

theorem epochGrid_lt {t : TLE ℚ} (g : Guards t)
    (h : t.epoch.ordinal < yearLen t.epoch.year ∨ t.epoch.nanos < 86399999568000) :
    epochGrid t < (yearLen t.epoch.year + 1) * 10 ^ 8 := by
  have hs := roundHalfEven_spec (dayFull t.epoch * 10 ^ 8) (by rw [dayFull_eq]; positivity)
  change |(epochGrid t : ℚ) - _| ≤ _ at hs
  rw [dayFull_eq, abs_le] at hs
  have hn : (t.epoch.nanos : ℚ) < 86400000000000 := by exact_mod_cast g.nanos
  have key : (epochGrid t : ℚ) < (((yearLen t.epoch.year + 1) * 10 ^ 8 : ℕ) : ℚ) := by
    push_cast
    rcases h with h | h
    · have : (t.epoch.ordinal : ℚ) + 1 ≤ yearLen t.epoch.year := by exact_mod_cast h
      linarith [hs.2]
    · have h1 : (t.epoch.nanos : ℚ) < 86399999568000 := by exact_mod_cast h
      have h2 : (t.epoch.ordinal : ℚ) ≤ yearLen t.epoch.year := by exact_mod_cast g.ordinal.2
      linarith [hs.2]
  exact_mod_cast key

/-- Every element set whose values fit their columns is written as two 69-character ASCII lines with
valid checksums, and reading them recovers every field to the printed precision.

Missing from the full property, because it is false there: drag or second-derivative values that do
not fit (`tle_bstar_overflow_rejected`), epochs in the last 0.432 ms of a year
(`tle_year_end_rejected`), and out-of-range values, none of which the builder refuses. `utcOk` says
which instants `tempoch` represents. -/
theorem tle_round_trip_partial (t : TLE ℚ) (utcOk : DateTime → Bool) (g : Guards t)
    (hb : Spec.AssumedFits t.bstar)
    (hend : t.epoch.ordinal < yearLen t.epoch.year ∨ t.epoch.nanos < 86399999568000)
    (hutc : ∀ dt, dt.year = t.epoch.year → utcOk dt = true) :
    ∃ l1 l2 t', formatTle t = .ok (l1, l2) ∧
      (isAscii l1 ∧ l1.length = 69 ∧ Spec.ChecksumOK l1) ∧
      (isAscii l2 ∧ l2.length = 69 ∧ Spec.ChecksumOK l2) ∧
      parseTle utcOk l1 l2 = .ok t' ∧ Recovers t t' := by
  obtain ⟨l1, l2, hf, ⟨a1, a2, a3⟩, ⟨b1, b2, b3⟩, hp⟩ := parse_written g hb utcOk
  rw [epoch_of_grid utcOk t.epoch.year (epochGrid t) (epochGrid_bounds g).1 (epochGrid_lt g hend)
    (hutc _ rfl)] at hp
  refine ⟨l1, l2, _, hf, ⟨a1, a2, ((validate_iff _).mp a3).2⟩, ⟨b1, b2, ((validate_iff _).mp b3).2⟩, hp, ?_⟩
  exact
    { norad := rfl, classification := rfl, intl := rfl, elset := rfl, rev := rfl, year := rfl
      epoch := epochGrid_close t
      nDot := ⟨_, rfl, signedValue_close _⟩
      nDdot := assumedValue_spec _
      bstar := assumedValue_spec _
      inclination := ⟨_, rfl, fixedValue_close 4 _⟩
      raan := ⟨_, rfl, fixedValue_close 4 _⟩
      ecc := ecc_close g.ecc.1
      argp := ⟨_, rfl, fixedValue_close 4 _⟩
      meanAnomaly := ⟨_, rfl, fixedValue_close 4 _⟩
      meanMotion := ⟨_, rfl, fixedValue_close 8 _⟩ }

/-- If the drag term does not fit its columns, the written pair is rejected by the reader. -/
theorem tle_bstar_overflow_rejected (t : TLE ℚ) (utcOk : DateTime → Bool) (g : Guards t)
    (hb : ¬ Spec.AssumedFits t.bstar) :
    ∃ l1 l2 k, formatTle t = .ok (l1, l2) ∧ k ≠ 69 ∧ parseTle utcOk l1 l2 = .err (.badLength 1 k) := by
  obtain ⟨cat, hf, hcl, hca, _⟩ := catalog g.norad
  obtain ⟨a1, b1⟩ := line1_facts g hcl hca
  have hne := assumed_overflow _ hb
  have hl : blen (withChecksum (line1Body t cat)) ≠ 69 := by
    rw [withChecksum_eq, blen_append, blen_ascii a1]
    have : blen [digitChar (computeChecksum (line1Body t cat))] = 1 := by
      rw [blen_ascii (by
        intro c hc; simp at hc; subst hc; exact digitChar_ascii (computeChecksum_lt _))]
      rfl
    omega
  refine ⟨_, _, _, by unfold formatTle; rw [hf]; rfl, hl, ?_⟩
  unfold parseTle
  rw [if_pos hl]

/-- An epoch in the last 0.432 ms of its year is printed as a day that the year does not have, and
the written pair is rejected by the reader. -/
theorem tle_year_end_rejected (t : TLE ℚ) (utcOk : DateTime → Bool) (g : Guards t)
    (hb : Spec.AssumedFits t.bstar) (ho : t.epoch.ordinal = yearLen t.epoch.year)
    (hn : 86399999568000 < t.epoch.nanos) :
    ∃ l1 l2, formatTle t = .ok (l1, l2) ∧ parseTle utcOk l1 l2 = .err .invalidEpoch := by
  obtain ⟨l1, l2, hf, _, _, hp⟩ := parse_written g hb utcOk
  refine ⟨l1, l2, hf, ?_⟩
  have hk : epochGrid t = (yearLen t.epoch.year + 1) * 10 ^ 8 := by
    apply le_antisymm (epochGrid_bounds g).2
    have hs := roundHalfEven_spec (dayFull t.epoch * 10 ^ 8) (by rw [dayFull_eq]; positivity)
    change |(epochGrid t : ℚ) - _| ≤ _ at hs
    rw [dayFull_eq, abs_le, ho] at hs
    have h1 : (86399999568000 : ℚ) < t.epoch.nanos := by exact_mod_cast hn
    have : (((yearLen t.epoch.year + 1) * 10 ^ 8 : ℕ) : ℚ) < (epochGrid t : ℚ) + 1 := by
      push_cast
      linarith [hs.1]
    have h2 : (yearLen t.epoch.year + 1) * 10 ^ 8 < epochGrid t + 1 := by exact_mod_cast this
    omega
  rw [hp, hk]
  have hq : (((yearLen t.epoch.year + 1) * 10 ^ 8 : ℕ) : ℚ) / 10 ^ 8 = ((yearLen t.epoch.year + 1 : ℕ) : ℚ) := by
    rw [Nat.cast_mul]; push_cast; rw [mul_div_assoc]; norm_num
  rw [hq]
  unfold epochFromYearDoy
  dsimp only
  split
  · have hfl : ⌊((yearLen t.epoch.year + 1 : ℕ) : ℚ)⌋.toNat = yearLen t.epoch.year + 1 := by
      rw [Int.floor_natCast]; rfl
    rw [hfl, if_neg (by omega)]
    rfl
  · rfl

/-- The ISS element set of the crate's documentation. -/
def iss : TLE ℚ :=
  { norad := 25544, classification := .unclassified, intl := "98067A".toList,
    epoch := ⟨2008, 264, 44740104192000⟩, nDot := -2182 / 10 ^ 8, nDdot := 0, bstar := -11606 / 10 ^ 9,
    elset := 292, rev := 56353, inclination := 516416 / 10 ^ 4, raan := 2474627 / 10 ^ 4,
    ecc := 6703 / 10 ^ 7, argp := 1305360 / 10 ^ 4, meanAnomaly := 3250288 / 10 ^ 4,
    meanMotion := 1572125391 / 10 ^ 8 }

theorem iss_guards : Guards iss := by
  constructor <;> simp only [iss] <;> try norm_num
  · decide
  · decide
  · decide
  · decide +kernel
  · exact Or.inl rfl

/-- The hypotheses of the round trip are met by the ISS set. -/
example : Guards iss ∧ Spec.AssumedFits iss.bstar ∧ iss.epoch.ordinal < yearLen iss.epoch.year := by
  refine ⟨iss_guards, ?_, by decide⟩
  refine Or.inr ⟨-4, by norm_num, by norm_num, ?_, ?_⟩
  · simp only [iss]; rw [abs_of_neg (by norm_num)]; norm_num
  · simp only [iss]; rw [abs_of_neg (by norm_num)]; norm_num

/-- The same set with an ordinary drag term of 0.99999901e-3, and with an epoch 0.2 ms before the new
year: both are legal element sets and both are written as text that cannot be read. -/
example : Guards { iss with bstar := 99999901 / 10 ^ 11 } ∧ ¬ Spec.AssumedFits (99999901 / 10 ^ 11) ∧
    Guards { iss with epoch := ⟨2007, 365, 86399999800000⟩ } := by
  have g := iss_guards
  refine ⟨⟨g.1, g.2, g.3, g.4, g.5, g.6, g.7, g.8, g.9, g.10, g.11, g.12, g.13, g.14, g.15, g.16, g.17⟩, ?_, ?_⟩
  · intro h
    have hv : (99999901 / 10 ^ 11 : ℚ) ≠ 0 := by norm_num
    have := (fits_iff hv).mp h
    have he : assumedExp (99999901 / 10 ^ 11) = -3 := by
      apply assumedExp_unique
      · rw [abs_of_pos (by norm_num)]; norm_num
      · rw [abs_of_pos (by norm_num)]; norm_num
    have hd : assumedDigits (99999901 / 10 ^ 11) = 100000 := by
      unfold assumedDigits roundHalfUp
      rw [he, abs_of_pos (by norm_num)]
      norm_num
      rfl
    omega
  · exact ⟨g.1, g.2, g.3, g.4, ⟨by norm_num, by norm_num⟩, ⟨by norm_num, by decide⟩, by norm_num, g.8, g.9,
      g.10, g.11, g.12, g.13, g.14, g.15, g.16, g.17⟩

/-! ### C08 no panic -/

/-- The outcome is a panic. -/
def Panics {ε α : Type} (r : Res ε α) : Prop := r = .panic

theorem not_panics_bind {ε α β : Type} {x : Res ε α} {f : α → Res ε β} (h : ¬ Panics x)
    (hf : ∀ a, x = .ok a → ¬ Panics (f a)) : ¬ Panics (x >>= f) := by
  cases x with
  | ok a => exact hf a rfl
  | err e => intro h; cases h
  | panic => exact absurd rfl h

theorem ofOption_not_panics {ε α : Type} (e : ε) (o : Option α) : ¬ Panics (Res.ofOption e o) := by
  cases o <;> intro h <;> cases h

theorem ok_not_panics {ε α : Type} (a : α) : ¬ Panics (.ok a : Res ε α) := by intro h; cases h
theorem err_not_panics {ε α : Type} (e : ε) : ¬ Panics (.err e : Res ε α) := by intro h; cases h

theorem byteAt_some {s : Str} {i : Nat} (h : i < blen s) : ∃ b, byteAt s i = some b := by
  unfold byteAt
  rw [← blen_utf8] at h
  exact ⟨_, List.getElem?_eq_getElem h⟩

theorem validate_not_panics {s : Str} (h : isAscii s) : ¬ Panics (validateChecksum s) := by
  unfold validateChecksum
  split
  · exact err_not_panics _
  · rename_i hl
    have hl' : blen s = 69 := by omega
    obtain ⟨b, hb⟩ := byteAt_some (s := s) (i := 68) (by omega)
    have ht : takeB s 68 = some (s.take 68) := by
      rw [takeB_ascii h, if_pos (by rw [← blen_ascii h]; omega)]
    rw [hb, ht]
    simp only [Res.orPanic, Res.bind_ok]
    split
    · exact err_not_panics _
    · split
      · exact err_not_panics _
      · exact ok_not_panics _

theorem trimStart_ascii {s : Str} (h : isAscii s) : isAscii (trimStart s) :=
  fun c hc => h c ((List.dropWhile_suffix isWs).mem hc)

theorem parseSat_not_panics {s : Str} (h : isAscii s) : ¬ Panics (parseSat s) := by
  unfold parseSat
  have h' := trimStart_ascii h
  generalize trimStart s = u at *
  dsimp only
  split
  · exact err_not_panics _
  · rename_i hh
    have hne : u ≠ [] := fun e => hh (Or.inl e)
    have hpos : 0 < u.length := List.length_pos_of_ne_nil hne
    obtain ⟨b, hb⟩ := byteAt_some (s := u) (i := 0) (by rw [blen_ascii h']; omega)
    have hd : dropB u 1 = some (u.drop 1) := by rw [dropB_ascii h', if_pos (by omega)]
    rw [hb]
    simp only [Res.orPanic, Res.bind_ok]
    split
    · exact ofOption_not_panics _ _
    · split
      · exact err_not_panics _
      · rw [hd]
        simp only [Res.bind_ok]
        split
        · exact err_not_panics _
        · exact not_panics_bind (ofOption_not_panics _ _) (fun _ _ => ok_not_panics _)

theorem parseAssumed_not_panics (s : Str) : ¬ Panics (parseAssumed s) := by
  unfold parseAssumed
  dsimp only
  split
  · exact ok_not_panics _
  · split
    · exact err_not_panics _
    · refine not_panics_bind (ofOption_not_panics _ _) (fun a _ => ?_)
      split
      · exact err_not_panics _
      · exact not_panics_bind (ofOption_not_panics _ _)
          (fun _ _ => not_panics_bind (ofOption_not_panics _ _) (fun _ _ => ok_not_panics _))

theorem parseEcc_not_panics (s : Str) : ¬ Panics (parseEcc s) := by
  unfold parseEcc
  dsimp only
  split
  · exact err_not_panics _
  · exact not_panics_bind (ofOption_not_panics _ _) (fun _ _ => ok_not_panics _)

theorem ofByte_not_panics (b : UInt8) : ¬ Panics (Classification.ofByte b) := by
  unfold Classification.ofByte
  repeat' split
  all_goals first | exact ok_not_panics _ | exact err_not_panics _

theorem epoch_not_panics (u : DateTime → Bool) (y : ℤ) (d : F64) : ¬ Panics (epochFromYearDoy u y d) := by
  unfold epochFromYearDoy
  dsimp only
  repeat' split
  all_goals first | exact ok_not_panics _ | exact err_not_panics _

/-- ASCII lines of any content and length: the reader returns an element set or an error value.
Missing from the full property, because it is false there: lines with multi-byte characters
(`parse_panics_on_multibyte`). -/
theorem parse_ascii_never_panics_partial (utcOk : DateTime → Bool) (l1 l2 : Str) (h1 : isAscii l1)
    (h2 : isAscii l2) : parseTle utcOk l1 l2 ≠ .panic := by
  change ¬ Panics _
  unfold parseTle
  split
  · exact err_not_panics _
  rename_i hl1
  split
  · exact err_not_panics _
  rename_i hl2
  have e1 : l1.length = 69 := by rw [← blen_ascii h1]; omega
  have e2 : l2.length = 69 := by rw [← blen_ascii h2]; omega
  have c1 : ∀ i j, i ≤ j → j ≤ 69 → ∃ u, col l1 i j = .ok u ∧ isAscii u := by
    intro i j hij hj
    refine ⟨_, by unfold col; rw [slice_ascii h1 hij (by omega)]; rfl, ?_⟩
    intro c hc
    exact h1 c (List.mem_of_mem_drop (List.mem_of_mem_take hc))
  have c2 : ∀ i j, i ≤ j → j ≤ 69 → ∃ u, col l2 i j = .ok u ∧ isAscii u := by
    intro i j hij hj
    refine ⟨_, by unfold col; rw [slice_ascii h2 hij (by omega)]; rfl, ?_⟩
    intro c hc
    exact h2 c (List.mem_of_mem_drop (List.mem_of_mem_take hc))
  obtain ⟨b1, hb1⟩ := byteAt_some (s := l1) (i := 0) (by omega)
  obtain ⟨b2, hb2⟩ := byteAt_some (s := l2) (i := 0) (by omega)
  obtain ⟨b7, hb7⟩ := byteAt_some (s := l1) (i := 7) (by omega)
  obtain ⟨u1, k1, v1⟩ := c1 2 7 (by omega) (by omega)
  obtain ⟨u2, k2, _⟩ := c1 9 17 (by omega) (by omega)
  obtain ⟨u3, k3, _⟩ := c1 18 20 (by omega) (by omega)
  obtain ⟨u4, k4, _⟩ := c1 20 32 (by omega) (by omega)
  obtain ⟨u5, k5, _⟩ := c1 33 43 (by omega) (by omega)
  obtain ⟨u6, k6, _⟩ := c1 44 52 (by omega) (by omega)
  obtain ⟨u7, k7, _⟩ := c1 53 61 (by omega) (by omega)
  obtain ⟨u8, k8, _⟩ := c1 64 68 (by omega) (by omega)
  obtain ⟨w1, m1, x1⟩ := c2 2 7 (by omega) (by omega)
  obtain ⟨w2, m2, _⟩ := c2 8 16 (by omega) (by omega)
  obtain ⟨w3, m3, _⟩ := c2 17 25 (by omega) (by omega)
  obtain ⟨w4, m4, _⟩ := c2 26 33 (by omega) (by omega)
  obtain ⟨w5, m5, _⟩ := c2 34 42 (by omega) (by omega)
  obtain ⟨w6, m6, _⟩ := c2 43 51 (by omega) (by omega)
  obtain ⟨w7, m7, _⟩ := c2 52 63 (by omega) (by omega)
  obtain ⟨w8, m8, _⟩ := c2 63 68 (by omega) (by omega)
  simp only [hb1, hb2, hb7, k1, k2, k3, k4, k5, k6, k7, k8, m1, m2, m3, m4, m5, m6, m7, m8, Res.orPanic,
    Res.bind_ok]
  split
  · exact err_not_panics _
  split
  · exact err_not_panics _
  refine not_panics_bind (validate_not_panics h1) (fun _ _ => ?_)
  refine not_panics_bind (validate_not_panics h2) (fun _ _ => ?_)
  refine not_panics_bind (parseSat_not_panics v1) (fun _ _ => ?_)
  refine not_panics_bind (ofByte_not_panics _) (fun _ _ => ?_)
  refine not_panics_bind (ofOption_not_panics _ _) (fun _ _ => ?_)
  refine not_panics_bind (ofOption_not_panics _ _) (fun _ _ => ?_)
  refine not_panics_bind (ofOption_not_panics _ _) (fun _ _ => ?_)
  refine not_panics_bind (parseAssumed_not_panics _) (fun _ _ => ?_)
  refine not_panics_bind (parseAssumed_not_panics _) (fun _ _ => ?_)
  refine not_panics_bind (ofOption_not_panics _ _) (fun _ _ => ?_)
  refine not_panics_bind (parseSat_not_panics x1) (fun _ _ => ?_)
  split
  · exact err_not_panics _
  refine not_panics_bind (ofOption_not_panics _ _) (fun _ _ => ?_)
  refine not_panics_bind (ofOption_not_panics _ _) (fun _ _ => ?_)
  refine not_panics_bind (parseEcc_not_panics _) (fun _ _ => ?_)
  refine not_panics_bind (ofOption_not_panics _ _) (fun _ _ => ?_)
  refine not_panics_bind (ofOption_not_panics _ _) (fun _ _ => ?_)
  refine not_panics_bind (ofOption_not_panics _ _) (fun _ _ => ?_)
  refine not_panics_bind (ofOption_not_panics _ _) (fun _ _ => ?_)
  exact not_panics_bind (epoch_not_panics _ _ _) (fun _ _ => ok_not_panics _)

/-- Two 69-byte lines with valid checksums on which the reader panics: byte 2 of the first is inside
a two-byte character. -/
theorem parse_panics_on_multibyte (utcOk : DateTime → Bool) : ∃ l1 l2,
    validateChecksum l1 = .ok () ∧ validateChecksum l2 = .ok () ∧ parseTle utcOk l1 l2 = .panic := by
  refine ⟨'1' :: 'é' :: List.replicate 65 '0' ++ ['1'], '2' :: List.replicate 67 '0' ++ ['2'],
    by decide +kernel, by decide +kernel, ?_⟩
  have v1 : validateChecksum ('1' :: 'é' :: List.replicate 65 '0' ++ ['1']) = .ok () := by decide +kernel
  have v2 : validateChecksum ('2' :: List.replicate 67 '0' ++ ['2']) = .ok () := by decide +kernel
  have b1 : blen ('1' :: 'é' :: List.replicate 65 '0' ++ ['1']) = 69 := by decide +kernel
  have b2 : blen ('2' :: List.replicate 67 '0' ++ ['2']) = 69 := by decide +kernel
  have k1 : byteAt ('1' :: 'é' :: List.replicate 65 '0' ++ ['1']) 0 = some 49 := by decide +kernel
  have k2 : byteAt ('2' :: List.replicate 67 '0' ++ ['2']) 0 = some 50 := by decide +kernel
  have s1 : slice ('1' :: 'é' :: List.replicate 65 '0' ++ ['1']) 2 7 = none := by decide +kernel
  unfold parseTle col
  rw [if_neg (by rw [b1]; simp), if_neg (by rw [b2]; simp), k1, k2, v1, v2, s1]
  rfl

/-- The checksum validator itself panics on a 69-byte line that ends in a two-byte character. -/
theorem validate_panics_on_multibyte :
    validateChecksum (List.replicate 67 '0' ++ ['é']) = .panic := by decide +kernel

end Verif.Tle.Props
