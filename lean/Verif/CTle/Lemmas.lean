import Verif.CTle.Model
import Verif.Tle.Props
import Mathlib.Data.List.TakeWhile

/-! What holds of every element set that has been read, and blanks around a line. -/

namespace Verif.CTle

open Verif.Text (Str Res F64 trim trimStart trimEnd isWs blen slice takeB dropB parseInt parseDigits parseUInt)
open Verif.Tle
open Verif.Tle.Props

theorem bind_eq_ok {ε α β : Type} {x : Res ε α} {f : α → Res ε β} {b : β} (h : (x >>= f) = .ok b) :
    ∃ a, x = .ok a ∧ f a = .ok b := by
  cases x with
  | ok a => exact ⟨a, rfl, h⟩
  | err e => cases h
  | panic => cases h

theorem takeB_len {s t : Str} {n : Nat} (h : takeB s n = some t) : blen t = n := by
  induction s generalizing n t with
  | nil =>
    cases n with
    | zero => simp [takeB] at h; subst h; rfl
    | succ n => simp [takeB] at h
  | cons c cs ih =>
    cases n with
    | zero => simp [takeB] at h; subst h; rfl
    | succ n =>
      simp only [takeB] at h
      split at h
      · rename_i hc
        cases hh : takeB cs (n + 1 - c.utf8Size) with
        | none => rw [hh] at h; cases h
        | some u =>
          rw [hh] at h
          simp only [Option.map_some, Option.some.injEq] at h
          subst h
          have := ih hh
          have e : blen (c :: u) = c.utf8Size + blen u := by simp [blen]
          omega
      · cases h

theorem slice_len {l t : Str} {i j : Nat} (h : slice l i j = some t) : blen t = j - i := by
  unfold slice at h
  split at h
  · cases hd : dropB l i with
    | none => rw [hd] at h; simp at h
    | some r => rw [hd] at h; exact takeB_len h
  · cases h

theorem col_len {l t : Str} {i j : Nat} (h : col l i j = .ok t) : t.length ≤ j - i := by
  unfold col at h
  cases hs : slice l i j with
  | none => rw [hs] at h; cases h
  | some u =>
    rw [hs] at h
    cases h
    rw [← slice_len hs]
    exact length_le_blen _

theorem trim_length (s : Str) : (trim s).length ≤ s.length := by
  unfold trim trimEnd trimStart
  rw [List.length_reverse]
  refine le_trans (List.dropWhile_suffix isWs).length_le ?_
  rw [List.length_reverse]
  exact (List.dropWhile_suffix isWs).length_le

theorem year_bound {s : Str} {yy : Int} (hs : s.length ≤ 2) (h : parseIntField s = .ok yy) : -9 ≤ yy ∧ yy ≤ 99 := by
  unfold parseIntField at h
  have hl := (trim_length s).trans hs
  generalize trim s = u at *
  have key : ∀ (t : Str) (n : Nat), parseDigits t = some n → n < 10 ^ t.length := by
    intro t n hh
    obtain ⟨a, b⟩ := parseDigits_bound hh
    rw [b]
    exact digitsVal_lt t a
  have h2 : ∀ (t : Str) (k n : Nat), t.length ≤ k → k ≤ 2 → parseDigits t = some n → n < 10 ^ k := fun t k n hk _ hh =>
    lt_of_lt_of_le (key t n hh) (Nat.pow_le_pow_right (by norm_num) hk)
  cases hp : parseInt i64Max u with
  | none => rw [hp] at h; cases h
  | some v =>
    rw [hp] at h
    cases h
    unfold parseInt at hp
    split at hp
    · rename_i t
      obtain ⟨n, hn, he⟩ := Option.bind_eq_some_iff.mp hp
      have := h2 t 1 n (by simpa using hl) (by norm_num) hn
      split at he
      · cases he; constructor <;> omega
      · cases he
    · rename_i t
      obtain ⟨n, hn, he⟩ := Option.bind_eq_some_iff.mp hp
      have := h2 t 1 n (by simpa using hl) (by norm_num) hn
      split at he
      · cases he; constructor <;> omega
      · cases he
    · obtain ⟨n, hn, he⟩ := Option.bind_eq_some_iff.mp hp
      have := h2 u 2 n hl (by norm_num) hn
      split at he
      · cases he; constructor <;> omega
      · cases he

theorem epoch_year {utcOk : DateTime → Bool} {y : Int} {d : F64} {dt : DateTime} (h : epochFromYearDoy utcOk y d = .ok dt) :
    dt.year = y ∨ dt.year = y + 1 := by
  unfold epochFromYearDoy at h
  dsimp only at h
  repeat' split at h
  all_goals first | cases h | skip
  unfold addNanos
  repeat' split
  all_goals simp

theorem ecc_range {s : Str} {e : ℚ} (h : parseEcc s = .ok e) : 0 ≤ e ∧ e < 1 := by
  unfold parseEcc at h
  dsimp only at h
  split at h
  · cases h
  · rename_i hd
    obtain ⟨n, hn, he⟩ := bind_eq_ok h
    cases he
    rw [not_or, not_not] at hd
    have ha : Text.isAscii (trim s) := Text.all_digit_ascii hd.2
    cases hp : parseUInt u64Max (trim s) with
    | none => rw [hp] at hn; cases hn
    | some m =>
      rw [hp] at hn
      cases hn
      have hb := parseUInt_bound hp
      rw [Text.blen_ascii ha, zpow_neg, zpow_natCast]
      have : (n : ℚ) < 10 ^ (trim s).length := by exact_mod_cast hb
      refine ⟨by positivity, ?_⟩
      rw [← div_eq_mul_inv, div_lt_one (by positivity)]
      exact this

/-- Of every set that is read: the eccentricity is below one and the year is not before 1957, or 1991 where the two columns
hold a negative number. -/
theorem read_range {utcOk : DateTime → Bool} {l1 l2 : Str} {t : TLE F64} (h : parseTle utcOk l1 l2 = .ok t) :
    0 ≤ t.ecc ∧ t.ecc < 1 ∧ 1957 ≤ t.epoch.year ∧ t.epoch.year ≤ 2057 := by
  unfold parseTle at h
  split at h
  · cases h
  split at h
  · cases h
  obtain ⟨b1, _, h⟩ := bind_eq_ok h
  obtain ⟨b2, _, h⟩ := bind_eq_ok h
  split at h
  · cases h
  split at h
  · cases h
  obtain ⟨_, _, h⟩ := bind_eq_ok h
  obtain ⟨_, _, h⟩ := bind_eq_ok h
  obtain ⟨_, _, h⟩ := bind_eq_ok h
  obtain ⟨n1, _, h⟩ := bind_eq_ok h
  obtain ⟨_, _, h⟩ := bind_eq_ok h
  obtain ⟨cls, _, h⟩ := bind_eq_ok h
  obtain ⟨intl, _, h⟩ := bind_eq_ok h
  obtain ⟨cy, hcy, h⟩ := bind_eq_ok h
  obtain ⟨yy, hyy, h⟩ := bind_eq_ok h
  obtain ⟨_, _, h⟩ := bind_eq_ok h
  obtain ⟨day, _, h⟩ := bind_eq_ok h
  obtain ⟨_, _, h⟩ := bind_eq_ok h
  obtain ⟨nd, _, h⟩ := bind_eq_ok h
  obtain ⟨_, _, h⟩ := bind_eq_ok h
  obtain ⟨ndd, _, h⟩ := bind_eq_ok h
  obtain ⟨_, _, h⟩ := bind_eq_ok h
  obtain ⟨bs, _, h⟩ := bind_eq_ok h
  obtain ⟨_, _, h⟩ := bind_eq_ok h
  obtain ⟨el, _, h⟩ := bind_eq_ok h
  obtain ⟨_, _, h⟩ := bind_eq_ok h
  obtain ⟨n2, _, h⟩ := bind_eq_ok h
  split at h
  · cases h
  obtain ⟨_, _, h⟩ := bind_eq_ok h
  obtain ⟨inc, _, h⟩ := bind_eq_ok h
  obtain ⟨_, _, h⟩ := bind_eq_ok h
  obtain ⟨raan, _, h⟩ := bind_eq_ok h
  obtain ⟨_, _, h⟩ := bind_eq_ok h
  obtain ⟨ecc, hecc, h⟩ := bind_eq_ok h
  obtain ⟨_, _, h⟩ := bind_eq_ok h
  obtain ⟨argp, _, h⟩ := bind_eq_ok h
  obtain ⟨_, _, h⟩ := bind_eq_ok h
  obtain ⟨m, _, h⟩ := bind_eq_ok h
  obtain ⟨_, _, h⟩ := bind_eq_ok h
  obtain ⟨n, _, h⟩ := bind_eq_ok h
  obtain ⟨_, _, h⟩ := bind_eq_ok h
  obtain ⟨rev, _, h⟩ := bind_eq_ok h
  obtain ⟨ep, hep, h⟩ := bind_eq_ok h
  cases h
  obtain ⟨e0, e1⟩ := ecc_range hecc
  obtain ⟨y0, y1⟩ := year_bound (col_len hcy) hyy
  have he := epoch_year hep
  refine ⟨e0, e1, ?_⟩
  unfold expandYear at he
  dsimp only
  split at he <;> omega

/-! ## Blanks -/

theorem trimStart_blank {a s : Str} (ha : ∀ c ∈ a, isWs c = true) : trimStart (a ++ s) = trimStart s := by
  unfold trimStart
  rw [List.dropWhile_append_of_pos ha]

theorem trimEnd_blank {b s : Str} (hb : ∀ c ∈ b, isWs c = true) : trimEnd (s ++ b) = trimEnd s := by
  unfold trimEnd
  rw [List.reverse_append, List.dropWhile_append_of_pos (fun c hc => hb c (List.mem_reverse.mp hc))]

/-- Blanks at both ends make no difference to `trim`. -/
theorem trim_blank {a b s : Str} (ha : ∀ c ∈ a, isWs c = true) (hb : ∀ c ∈ b, isWs c = true) :
    trim (a ++ (s ++ b)) = trim s := by
  unfold trim
  rw [trimStart_blank ha]
  by_cases h : ∀ c ∈ s, isWs c = true
  · rw [trimStart_blank h, ← List.append_nil s, trimStart_blank h]
    have : trimStart b = [] := by
      unfold trimStart
      exact List.dropWhile_eq_nil_iff.2 hb
    rw [this]
    rfl
  · have hne : s.dropWhile isWs ≠ [] := fun e => h (List.dropWhile_eq_nil_iff.1 e)
    have : trimStart (s ++ b) = trimStart s ++ b := by
      unfold trimStart
      rw [List.dropWhile_append, if_neg (by simpa using hne)]
    rw [this, trimEnd_blank hb]

/-- A line that begins with an ASCII character that is no blank and ends in a digit is not trimmed. -/
theorem tight_line {l : Str} {b : UInt8} (ha : Text.isAscii l) (hb : byteAt l 0 = some b) (h49 : b = 49 ∨ b = 50)
    (hk : Tle.Spec.ChecksumOK l) : trim l = l := by
  obtain ⟨body, d, rfl, h1, h2, _⟩ := hk
  refine Text.trim_tight ⟨?_, ?_⟩
  · intro c hc
    cases hl : body ++ [d] with
    | nil => simp at hl
    | cons x xs =>
      rw [hl] at hc hb ha
      simp only [List.head?_cons, Option.some.injEq] at hc
      subst hc
      have hx : x.toNat < 128 := ha x (by simp)
      rw [byteAt_cons_zero hx] at hb
      simp only [Option.some.injEq] at hb
      have : x.toNat = 49 ∨ x.toNat = 50 := by
        have e := congrArg UInt8.toNat hb
        rw [UInt8.toNat_ofNat', Nat.mod_eq_of_lt (by omega)] at e
        rcases h49 with rfl | rfl
        · left; simpa using e
        · right; simpa using e
      unfold isWs
      rcases this with h | h <;> rw [h] <;> decide
  · intro c hc
    simp only [List.getLast?_append, List.getLast?_singleton, Option.some_or, Option.some.injEq] at hc
    subst hc
    unfold isWs
    have e : d.toNat = 48 ∨ d.toNat = 49 ∨ d.toNat = 50 ∨ d.toNat = 51 ∨ d.toNat = 52 ∨ d.toNat = 53 ∨ d.toNat = 54 ∨
      d.toNat = 55 ∨ d.toNat = 56 ∨ d.toNat = 57 := by omega
    rcases e with h | h | h | h | h | h | h | h | h | h <;> rw [h] <;> decide

theorem first_bytes {utcOk : DateTime → Bool} {l1 l2 : Str} {t : TLE F64} (h : parseTle utcOk l1 l2 = .ok t) :
    byteAt l1 0 = some 49 ∧ byteAt l2 0 = some 50 := by
  unfold parseTle at h
  split at h
  · cases h
  split at h
  · cases h
  obtain ⟨b1, g1, h⟩ := bind_eq_ok h
  obtain ⟨b2, g2, h⟩ := bind_eq_ok h
  split at h
  · cases h
  rename_i n1
  split at h
  · cases h
  rename_i n2
  rw [not_not] at n1 n2
  have k : ∀ {s : Str} {b : UInt8}, (Res.orPanic (byteAt s 0) : Res TleError UInt8) = .ok b → byteAt s 0 = some b := by
    intro s b hh
    cases hx : byteAt s 0 with
    | none => rw [hx] at hh; cases hh
    | some y => rw [hx] at hh; cases hh; rfl
  rw [k g1, k g2, n1, n2]
  exact ⟨rfl, rfl⟩

theorem tight1 {utcOk : DateTime → Bool} {l1 l2 : Str} {t : TLE F64} (h : parseTle utcOk l1 l2 = .ok t) (ha : Text.isAscii l1)
    (hk : Tle.Spec.ChecksumOK l1) : trim l1 = l1 := tight_line ha (first_bytes h).1 (Or.inl rfl) hk
theorem tight2 {utcOk : DateTime → Bool} {l1 l2 : Str} {t : TLE F64} (h : parseTle utcOk l1 l2 = .ok t) (ha : Text.isAscii l2)
    (hk : Tle.Spec.ChecksumOK l2) : trim l2 = l2 := tight_line ha (first_bytes h).2 (Or.inr rfl) hk

end Verif.CTle
