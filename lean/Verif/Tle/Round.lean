import Verif.Tle.Lemmas

namespace Verif.Tle
open Verif.Text

/-! ### Satellite numbers -/

theorem byteAt_cons_zero {c : Char} (h : c.toNat < 128) (s : Str) :
    byteAt (c :: s) 0 = some (UInt8.ofNat c.toNat) := by
  unfold byteAt utf8
  rw [List.flatMap_cons, utf8_ascii_cons h]; rfl

theorem alphabet_get (k : Nat) : Spec.alpha5Alphabet[k]? =
    if k < 10 then some (digitChar k)
    else if 10 ≤ k ∧ k ≤ 17 then some (Char.ofNat (65 + (k - 10)))
    else if 18 ≤ k ∧ k ≤ 22 then some (Char.ofNat (74 + (k - 18)))
    else if 23 ≤ k ∧ k ≤ 33 then some (Char.ofNat (80 + (k - 23)))
    else none := by
  by_cases hk : k < 34
  · have : ∀ j : Fin 34, Spec.alpha5Alphabet[j.val]? =
      if j.val < 10 then some (digitChar j.val)
      else if 10 ≤ j.val ∧ j.val ≤ 17 then some (Char.ofNat (65 + (j.val - 10)))
      else if 18 ≤ j.val ∧ j.val ≤ 22 then some (Char.ofNat (74 + (j.val - 18)))
      else if 23 ≤ j.val ∧ j.val ≤ 33 then some (Char.ofNat (80 + (j.val - 23)))
      else none := by decide +kernel
    exact this ⟨k, hk⟩
  · rw [List.getElem?_eq_none (by
      have : Spec.alpha5Alphabet.length = 34 := by decide +kernel
      omega)]
    rw [if_neg (by omega), if_neg (by omega), if_neg (by omega), if_neg (by omega)]

theorem digitsW_four (n : Nat) : digitsW 4 n =
    [digitChar (n / 10 / 10 / 10 % 10), digitChar (n / 10 / 10 % 10), digitChar (n / 10 % 10),
      digitChar (n % 10)] := rfl

theorem digitsW_four' (n : Nat) : digitsW 4 (n % 10000) =
    [Spec.digitAt n 3, Spec.digitAt n 2, Spec.digitAt n 1, Spec.digitAt n 0] := by
  rw [digitsW_four]
  unfold Spec.digitAt digitChar
  have h3 : n % 10000 / 10 / 10 / 10 % 10 = n / 10 ^ 3 % 10 := by norm_num; omega
  have h2 : n % 10000 / 10 / 10 % 10 = n / 10 ^ 2 % 10 := by norm_num; omega
  have h1 : n % 10000 / 10 % 10 = n / 10 ^ 1 % 10 := by norm_num; omega
  have h0 : n % 10000 % 10 = n / 10 ^ 0 % 10 := by norm_num
  rw [h3, h2, h1, h0]

theorem formatAlpha5_spec {n : Nat} (h : n < 340000) :
    ∃ c, Spec.alpha5Alphabet[n / 10000]? = some c ∧
      formatAlpha5 n = .ok (c :: digitsW 4 (n % 10000)) := by
  unfold formatAlpha5
  by_cases h1 : n < 100000
  · refine ⟨digitChar (n / 10000), ?_, ?_⟩
    · rw [alphabet_get, if_pos (by omega)]
    · rw [if_pos h1, padZero_eq_digitsW 5 n (by omega) (by norm_num; omega)]
      congr 1
      change digitsW 0 (n / 10 / 10 / 10 / 10 / 10) ++ [_] ++ [_] ++ [_] ++ [_] ++ [_] = _
      rw [digitsW_four]
      simp only [digitsW, List.nil_append, List.cons_append, List.cons.injEq, and_true]
      refine ⟨?_, ?_, ?_, ?_, ?_⟩ <;> (congr 1; omega)
  · rw [if_neg h1, if_neg (by omega), alphabet_get, if_neg (by omega)]
    have hp := padZero_eq_digitsW 4 (n % 10000) (by omega) (by norm_num; omega)
    by_cases a : 10 ≤ n / 10000 ∧ n / 10000 ≤ 17
    · simp only [a, and_self, if_true, hp]
      exact ⟨_, rfl, rfl⟩
    · simp only [a, if_false]
      by_cases b : 18 ≤ n / 10000 ∧ n / 10000 ≤ 22
      · simp only [b, and_self, if_true, hp]
        exact ⟨_, rfl, rfl⟩
      · simp only [b, if_false]
        have c : 23 ≤ n / 10000 ∧ n / 10000 ≤ 33 := by omega
        simp only [c, and_self, if_true, hp]
        exact ⟨_, rfl, rfl⟩

/-- Facts about the 34 symbols used by the reader. -/
theorem alphabet_reader : ∀ k : Fin 34, ∃ c, Spec.alpha5Alphabet[k.val]? = some c ∧ c.toNat < 128 ∧
    isWs c = false ∧ c ≠ '+' ∧ c ≠ 'I' ∧ c ≠ 'O' ∧
    (if k.val < 10 then c.isDigit = true ∧ digitVal c = k.val
     else c.isDigit = false ∧ letterValue c.toNat = some k.val) := by
  have h : ∀ k : Fin 34, (Spec.alpha5Alphabet[k.val]?).any (fun c => decide (c.toNat < 128 ∧
    isWs c = false ∧ c ≠ '+' ∧ c ≠ 'I' ∧ c ≠ 'O' ∧
    (if k.val < 10 then c.isDigit = true ∧ digitVal c = k.val
     else c.isDigit = false ∧ letterValue c.toNat = some k.val))) = true := by decide +kernel
  intro k
  have := h k
  rw [Option.any_eq_true] at this
  obtain ⟨c, h1, h2⟩ := this
  exact ⟨c, h1, of_decide_eq_true h2⟩

theorem parseSat_field {n : Nat} (h : n < 340000) {c : Char}
    (hc : Spec.alpha5Alphabet[n / 10000]? = some c) :
    parseSat (c :: digitsW 4 (n % 10000)) = .ok n := by
  obtain ⟨c', h1, hasc, hws, hplus, _, _, h2⟩ := alphabet_reader ⟨n / 10000, by omega⟩
  rw [hc] at h1
  cases h1
  obtain ⟨hd, hv⟩ := digitsW_digits 4 (n % 10000)
  have hlen := digitsW_length 4 (n % 10000)
  have hv' : digitsVal (digitsW 4 (n % 10000)) = n % 10000 := by rw [hv]; norm_num
  have hascT := all_digit_ascii hd
  have hascA : isAscii (c :: digitsW 4 (n % 10000)) := isAscii_cons.mpr ⟨hasc, hascT⟩
  generalize digitsW 4 (n % 10000) = T at *
  have hne : T ≠ [] := by intro h; rw [h] at hlen; simp at hlen
  have htrim : trimStart (c :: T) = c :: T :=
    trimStart_tight (by intro d hd; simp at hd; subst hd; exact hws)
  unfold parseSat
  rw [htrim]
  simp only
  rw [if_neg (by
    rw [blen_ascii hascA]
    simp [hlen])]
  rw [byteAt_cons_zero hasc]
  simp only [Res.orPanic, Res.bind_ok, isDigitB_char hasc, ofNat_toNat_ascii hasc]
  simp only at h2
  split at h2
  · rename_i hk
    have hall : (c :: T).all Char.isDigit = true := by simp [h2.1]; simpa using hd
    have hval : digitsVal (c :: T) = n := by
      have := digitsVal_append [c] T
      rw [List.singleton_append] at this
      rw [this, hlen, hv']
      simp [digitsVal, h2.2]; omega
    rw [if_pos h2.1, parseUInt_of hall (by simp) (by rw [hval]; unfold u32Max; omega), hval]
    rfl
  · rename_i hk
    rw [if_neg (by simp [h2.1])]
    rw [h2.2]
    have hdrop : dropB (c :: T) 1 = some T := by
      rw [dropB_ascii hascA, if_pos (by simp)]; simp
    simp only [hdrop, Res.bind_ok]
    have hTd : (utf8 T).all isDigitB = true := by
      rw [utf8_ascii hascT, List.all_map, List.all_eq_true]
      intro x hx
      simp only [Function.comp]
      rw [isDigitB_char (hascT x hx)]
      exact List.all_eq_true.mp hd x hx
    rw [if_neg (by rw [blen_ascii hascT]; simp [hlen]; simpa using hTd)]
    rw [parseUInt_of hd hne (by rw [hv']; unfold u32Max; omega), hv']
    simp only [Res.ofOption, Res.bind_ok]
    congr 1; omega

/-! ### Signed decimal and assumed decimal fields -/

theorem natStr_ascii (n : Nat) : isAscii (natStr n) := all_digit_ascii (natStr_digits n).1
theorem padZero_ascii (w n : Nat) : isAscii (padLeft '0' w (natStr n)) :=
  all_digit_ascii (padZero_digits w n).1

/-- Value printed by `format_signed_decimal` when the digits fit. -/
def signedValue (v : ℚ) : ℚ :=
  (if v < 0 then -1 else 1) * (roundHalfUp (|v| * 10 ^ 8) : ℚ) / 10 ^ 8

theorem formatSigned_length {v : ℚ} (h : roundHalfUp (|v| * 10 ^ 8) < 10 ^ 8) :
    (formatSigned v).length = 10 := by
  unfold formatSigned
  have := natStr_length_le 7 _ h
  simp [padLeft_length, this]

theorem formatSigned_ascii (v : ℚ) : isAscii (formatSigned v) := by
  unfold formatSigned
  rw [isAscii_cons, isAscii_cons]
  refine ⟨by split <;> decide, by decide, padZero_ascii _ _⟩

theorem parse_formatSigned {v : ℚ} (h : roundHalfUp (|v| * 10 ^ 8) < 10 ^ 8) :
    parseFloatField (formatSigned v) = .ok (.num (signedValue v)) := by
  have hl := formatSigned_length h
  unfold formatSigned at hl
  obtain ⟨h1, h2, h3⟩ := padZero_digits 8 (roundHalfUp (|v| * 10 ^ 8))
  unfold parseFloatField formatSigned signedValue
  generalize padLeft '0' 8 (natStr (roundHalfUp (|v| * 10 ^ 8))) = T at *
  have hTl : T.length = 8 := by simpa using hl
  have hT : Tight ('.' :: T) := tight_of_all (by
    intro c hc
    rcases List.mem_cons.mp hc with rfl | hc
    · decide
    · exact isDigit_not_ws (List.all_eq_true.mp h1 c hc))
  have hu : parseUFloat ('.' :: T) = some ((roundHalfUp (|v| * 10 ^ 8) : ℚ) / 10 ^ 8) := by
    have := parseUFloat_point (a := []) (b := T) rfl h1 (by simp [h2])
    rw [List.nil_append, List.nil_append, h3, hTl] at this
    exact this
  split
  · have hT' : Tight ('-' :: '.' :: T) := tight_of_all (by
      intro c hc
      rcases List.mem_cons.mp hc with rfl | hc
      · decide
      · rcases List.mem_cons.mp hc with rfl | hc
        · decide
        · exact isDigit_not_ws (List.all_eq_true.mp h1 c hc))
    rw [trim_tight hT', parseFloat_neg hu]
    simp only [Res.ofOption]
    congr 2; ring
  · have := trim_padLeft hT (1 + ('.' :: T).length)
    unfold padLeft at this
    rw [Nat.add_sub_cancel] at this
    rw [List.replicate_one, List.singleton_append] at this
    rw [this, parseFloat_pos hu (by simp)]
    simp only [Res.ofOption]
    congr 2; ring

theorem splitLastSign_eq {m e : Str} {c : Char} (hc : c = '-' ∨ c = '+') (he : e.all Char.isDigit = true) :
    splitLastSign (m ++ c :: e) = some (m, c :: e) := by
  unfold splitLastSign
  have hr : (m ++ c :: e).reverse = e.reverse ++ c :: m.reverse := by simp
  rw [hr]
  have hp : ∀ x ∈ e.reverse, (x ≠ '-' && x ≠ '+') = true := by
    intro x hx
    have := List.all_eq_true.mp he x (List.mem_reverse.mp hx)
    simp only [ne_eq, decide_not, Bool.and_eq_true, Bool.not_eq_eq_eq_not, Bool.not_true,
      decide_eq_false_iff_not]
    constructor <;> (rintro rfl; simp at this)
  have hcf : (c ≠ '-' && c ≠ '+') = false := by rcases hc with rfl | rfl <;> decide
  dsimp only
  rw [List.takeWhile_append_of_pos hp, List.dropWhile_append_of_pos hp]
  simp only [List.takeWhile_cons, List.dropWhile_cons, hcf]
  simp

theorem parseInt_signed {max : Nat} {e : Str} {c : Char} (hc : c = '-' ∨ c = '+')
    (he : e.all Char.isDigit = true) (hne : e ≠ []) (hm : digitsVal e ≤ max) :
    parseInt max (c :: e) = some (if c = '-' then -(digitsVal e : ℤ) else digitsVal e) := by
  have hp := parseDigits_of he hne
  rcases hc with rfl | rfl
  · have : digitsVal e ≤ max + 1 := by omega
    simp [parseInt, hp, this]
  · simp [parseInt, hp, hm]

/-- Reading a field of the shape sign, digits, exponent sign, digits. -/
theorem parseAssumed_shape {neg : Bool} {m e : Str} {c : Char} (hm : m.all Char.isDigit = true)
    (hmne : m ≠ []) (hmv : digitsVal m ≤ u64Max) (hc : c = '-' ∨ c = '+')
    (he : e.all Char.isDigit = true) (hne : e ≠ []) (hev : digitsVal e ≤ i32Max) :
    parseAssumed ((if neg then '-' else ' ') :: m ++ c :: e) =
      .ok ((if neg then -1 else 1) * ((digitsVal m : ℚ) * (10 : ℚ) ^ (-(m.length : ℤ))) *
        (10 : ℚ) ^ (if c = '-' then -(digitsVal e : ℤ) else digitsVal e)) := by
  have hws : ∀ x ∈ m ++ c :: e, isWs x = false := by
    intro x hx
    rcases List.mem_append.mp hx with hx | hx
    · exact isDigit_not_ws (List.all_eq_true.mp hm x hx)
    · rcases List.mem_cons.mp hx with rfl | hx
      · rcases hc with rfl | rfl <;> decide
      · exact isDigit_not_ws (List.all_eq_true.mp he x hx)
  have hascm : isAscii m := all_digit_ascii hm
  have hasc : isAscii (m ++ c :: e) := by
    rw [isAscii_append, isAscii_cons]
    exact ⟨hascm, by rcases hc with rfl | rfl <;> decide, all_digit_ascii he⟩
  have hlen : ¬ blen (m ++ c :: e) < 2 := by
    rw [blen_ascii hasc]
    have := List.length_pos_of_ne_nil hmne
    simp; omega
  have core : ∀ sg : ℚ, (if blen (m ++ c :: e) < 2 then (.err .invalidNumber : Res TleError ℚ)
      else do
        let (mant, exp) ← Res.ofOption .invalidNumber (splitLastSign (m ++ c :: e))
        if ¬ mant.all Char.isDigit ∨ mant = [] then .err .invalidNumber
        else do
          let m ← Res.ofOption .invalidNumber (parseUInt u64Max mant)
          let e ← Res.ofOption .invalidNumber (parseInt i32Max exp)
          .ok (sg * ((m : ℚ) * (10 : ℚ) ^ (-(blen mant : ℤ))) * (10 : ℚ) ^ e)) =
      .ok (sg * ((digitsVal m : ℚ) * (10 : ℚ) ^ (-(m.length : ℤ))) *
        (10 : ℚ) ^ (if c = '-' then -(digitsVal e : ℤ) else digitsVal e)) := by
    intro sg
    rw [if_neg hlen, splitLastSign_eq hc he]
    simp only [Res.ofOption, Res.bind_ok]
    rw [if_neg (by simp [hmne]; simpa using hm), parseUInt_of hm hmne hmv,
      parseInt_signed hc he hne hev, blen_ascii hascm]
    rfl
  unfold parseAssumed
  cases neg with
  | true =>
    have ht : trim ('-' :: (m ++ c :: e)) = '-' :: (m ++ c :: e) := trim_tight (tight_of_all (by
      intro x hx
      rcases List.mem_cons.mp hx with rfl | hx
      · decide
      · exact hws x hx))
    simp only [if_true, List.cons_append]
    rw [ht, if_neg (by simp)]
    exact core (-1)
  | false =>
    have ht : trim (' ' :: (m ++ c :: e)) = m ++ c :: e := by
      have := trim_padLeft (tight_of_all hws) (1 + (m ++ c :: e).length)
      unfold padLeft at this
      rw [Nat.add_sub_cancel, List.replicate_one, List.singleton_append] at this
      exact this
    simp only [Bool.false_eq_true, if_false, List.cons_append]
    rw [ht]
    obtain ⟨d, t, hmt, hd⟩ := digits_head hm hmne
    have hd1 : d ≠ '-' := by rintro rfl; simp at hd
    have hd2 : d ≠ '+' := by rintro rfl; simp at hd
    rw [if_neg (by simp [hmne])]
    have hmatch : signRest (m ++ c :: e) = (1, m ++ c :: e) := by
      subst hmt
      unfold signRest
      simp only [List.cons_append]
      split
      · rename_i h; exact absurd (List.cons.inj h).1 hd1
      · rename_i h; exact absurd (List.cons.inj h).1 hd2
      · rfl
    rw [hmatch]
    exact core 1

end Verif.Tle
