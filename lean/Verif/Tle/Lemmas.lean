import Verif.Tle.Model
import Verif.Tle.Spec
import Verif.Text.Lemmas

namespace Verif.Tle
open Verif.Text

/-! ### Checksum -/

/-- Checksum contribution of one byte, as coded. -/
def byteWeight (b : UInt8) : Nat :=
  if isDigitB b then b.toNat - 48 else if b.toNat = 45 then 1 else 0

theorem foldl_weight (l : List UInt8) (a : Nat) :
    l.foldl (fun sum b =>
      if isDigitB b then sum + (b.toNat - 48) else if b.toNat = 45 then sum + 1 else sum) a
      = a + (l.map byteWeight).sum := by
  induction l generalizing a with
  | nil => simp
  | cons b bs ih =>
    rw [List.foldl_cons, ih, List.map_cons, List.sum_cons]
    unfold byteWeight
    split
    · omega
    · split <;> omega

theorem utf8EncodeChar_hi {c : Char} (h : 128 ≤ c.toNat) :
    ∀ b ∈ String.utf8EncodeChar c, 128 ≤ b.toNat := by
  have hv : ¬ c.toNat ≤ 127 := by omega
  intro b hb
  unfold String.utf8EncodeChar at hb
  simp only [Char.toNat_val, hv, if_false] at hb
  split at hb
  · simp only [List.mem_cons, List.not_mem_nil, or_false] at hb
    rcases hb with rfl | rfl <;> (rw [UInt8.toNat_ofNat']; omega)
  · split at hb
    · simp only [List.mem_cons, List.not_mem_nil, or_false] at hb
      rcases hb with rfl | rfl | rfl <;> (rw [UInt8.toNat_ofNat']; omega)
    · simp only [List.mem_cons, List.not_mem_nil, or_false] at hb
      rcases hb with rfl | rfl | rfl | rfl <;> (rw [UInt8.toNat_ofNat']; omega)

theorem byteWeight_hi {b : UInt8} (h : 128 ≤ b.toNat) : byteWeight b = 0 := by
  unfold byteWeight isDigitB
  have h1 : ¬ b.toNat ≤ 57 := by omega
  have h2 : b.toNat ≠ 45 := by omega
  simp [h1, h2]

theorem ofNat_toNat_ascii {c : Char} (h : c.toNat < 128) : (UInt8.ofNat c.toNat).toNat = c.toNat := by
  rw [UInt8.toNat_ofNat']; omega

theorem char_eq_of_toNat {c d : Char} (h : c.toNat = d.toNat) : c = d := by
  apply Char.ext
  exact UInt32.toNat_inj.mp h

theorem isDigitB_char {c : Char} (h : c.toNat < 128) :
    isDigitB (UInt8.ofNat c.toNat) = c.isDigit := by
  rw [Bool.eq_iff_iff, isDigit_range]
  unfold isDigitB
  rw [ofNat_toNat_ascii h]
  simp

theorem char_weight (c : Char) :
    ((String.utf8EncodeChar c).map byteWeight).sum = Spec.weight c := by
  by_cases h : c.toNat < 128
  · rw [utf8_ascii_cons h]
    simp only [List.map_cons, List.map_nil, List.sum_cons, List.sum_nil, Nat.add_zero]
    unfold byteWeight Spec.weight
    rw [isDigitB_char h, ofNat_toNat_ascii h]
    by_cases hd : c.isDigit = true
    · rw [if_pos hd, if_pos (isDigit_range.mp hd)]
    · rw [if_neg hd, if_neg (fun h' => hd (isDigit_range.mpr h'))]
      have : c.toNat = 45 ↔ c = '-' := ⟨fun h => char_eq_of_toNat h, fun h => by subst h; rfl⟩
      by_cases h45 : c.toNat = 45
      · rw [if_pos h45, if_pos (this.mp h45)]
      · rw [if_neg h45, if_neg (fun h => h45 (this.mpr h))]
  · have h128 : 128 ≤ c.toNat := by omega
    have hz : ∀ b ∈ String.utf8EncodeChar c, byteWeight b = 0 :=
      fun b hb => byteWeight_hi (utf8EncodeChar_hi h128 b hb)
    rw [List.sum_eq_zero (by simpa using hz)]
    unfold Spec.weight
    rw [if_neg (by omega), if_neg (by rintro rfl; simp at h128)]

theorem computeChecksum_eq (s : Str) : computeChecksum s = (s.map Spec.weight).sum % 10 := by
  unfold computeChecksum
  rw [foldl_weight]
  congr 1
  rw [Nat.zero_add]
  induction s with
  | nil => rfl
  | cons c cs ih =>
    rw [utf8, List.flatMap_cons, List.map_append, List.sum_append, char_weight, List.map_cons,
      List.sum_cons]
    unfold utf8 at ih
    rw [ih]

theorem utf8_append (s t : Str) : utf8 (s ++ t) = utf8 s ++ utf8 t := by
  simp [utf8]

theorem utf8Size_pos' (c : Char) : 1 ≤ c.utf8Size := Char.utf8Size_pos c

theorem takeB_append (s t : Str) : takeB (s ++ t) (blen s) = some s := by
  induction s with
  | nil => cases t <;> simp [blen, takeB]
  | cons c cs ih =>
    have hb : blen (c :: cs) = c.utf8Size + blen cs := by simp [blen]
    have := utf8Size_pos' c
    obtain ⟨m, hm⟩ : ∃ m, blen (c :: cs) = m + 1 := ⟨blen (c :: cs) - 1, by omega⟩
    rw [List.cons_append, hm]
    simp only [takeB]
    rw [if_pos (by omega)]
    have : m + 1 - c.utf8Size = blen cs := by omega
    rw [this, ih]; rfl

/-- The last byte of a string is the last byte of its last character. -/
theorem byteAt_last (s : Str) (c : Char) :
    byteAt (s ++ [c]) (blen s + c.utf8Size - 1) = (String.utf8EncodeChar c)[c.utf8Size - 1]? := by
  unfold byteAt
  rw [utf8_append, List.getElem?_append_right (by rw [blen_utf8]; have := utf8Size_pos' c; omega)]
  rw [blen_utf8]
  have : blen s + c.utf8Size - 1 - blen s = c.utf8Size - 1 := by have := utf8Size_pos' c; omega
  rw [this]; simp [utf8]

theorem utf8Size_hi {c : Char} (h : 128 ≤ c.toNat) : 2 ≤ c.utf8Size := by
  unfold Char.utf8Size
  have : ¬ c.val ≤ 0x7f := by
    rw [UInt32.le_iff_toNat_le]
    change ¬ c.toNat ≤ 127
    omega
  change 2 ≤ if c.val ≤ 0x7f then 1 else if c.val ≤ 0x7ff then 2 else if c.val ≤ 0xffff then 3 else 4
  rw [if_neg this]
  repeat' split
  all_goals omega

theorem validate_iff (line : Str) :
    validateChecksum line = .ok () ↔ blen line = 69 ∧ Spec.ChecksumOK line := by
  unfold validateChecksum
  by_cases hl : blen line = 69
  swap
  · simp [hl]
  simp only [hl, ne_eq, not_true, if_false, true_and]
  -- decompose at the last character
  obtain ⟨body, d, rfl⟩ : ∃ body d, line = body ++ [d] := by
    refine ⟨line.dropLast, line.getLast (by rintro rfl; simp [blen] at hl), ?_⟩
    rw [List.dropLast_append_getLast]
  have hbl : blen body + d.utf8Size = 69 := by
    rw [← hl, blen_append]; simp [blen]
  have hpos := utf8Size_pos' d
  have hidx : blen body + d.utf8Size - 1 = 68 := by omega
  have hb := byteAt_last body d
  rw [hidx] at hb
  have hspec : Spec.ChecksumOK (body ++ [d]) ↔
      48 ≤ d.toNat ∧ d.toNat ≤ 57 ∧ d.toNat - 48 = (body.map Spec.weight).sum % 10 := by
    constructor
    · rintro ⟨b', d', he, h1, h2, h3⟩
      have := List.append_inj' he rfl
      obtain ⟨rfl, h4⟩ := this
      simp at h4; subst h4
      exact ⟨h1, h2, h3⟩
    · rintro ⟨h1, h2, h3⟩
      exact ⟨body, d, rfl, h1, h2, h3⟩
  rw [hspec, hb]
  by_cases hd : d.toNat < 128
  · have hsz := utf8Size_ascii hd
    have hbody : blen body = 68 := by omega
    rw [hsz, utf8_ascii_cons hd]
    have ht : takeB (body ++ [d]) 68 = some body := by rw [← hbody]; exact takeB_append body [d]
    rw [ht]
    simp only [Nat.sub_self, List.getElem?_cons_zero, Res.orPanic, Res.bind_ok]
    rw [isDigitB_char hd, ofNat_toNat_ascii hd, computeChecksum_eq]
    by_cases hdig : d.isDigit = true
    · have hr := isDigit_range.mp hdig
      rw [if_neg (by simp [hdig])]
      by_cases he : d.toNat - 48 = (body.map Spec.weight).sum % 10
      · rw [if_neg (by simp [he])]
        simp [hr, he]
      · rw [if_pos he]
        simp [he]
    · rw [if_pos hdig]
      constructor
      · intro h; cases h
      · rintro ⟨h1, h2, _⟩
        exact absurd (isDigit_range.mpr ⟨h1, h2⟩) hdig
  · -- last character not ASCII: its last byte is not a digit
    have h128 : 128 ≤ d.toNat := by omega
    have hlen : (String.utf8EncodeChar d).length = d.utf8Size := String.length_utf8EncodeChar d
    have hlt : d.utf8Size - 1 < (String.utf8EncodeChar d).length := by omega
    rw [List.getElem?_eq_getElem hlt]
    have hhi := utf8EncodeChar_hi h128 _ (List.getElem_mem hlt)
    have hnd : isDigitB ((String.utf8EncodeChar d)[d.utf8Size - 1]) = false := by
      unfold isDigitB
      rw [Bool.and_eq_false_iff]; right
      simp; omega
    simp only [Res.orPanic, Res.bind_ok]
    cases takeB (body ++ [d]) 68 with
    | none => simp; omega
    | some b => simp [hnd]; omega

end Verif.Tle
