import Verif.Calendar.Lemmas
import Verif.Ccsds.Model
import Mathlib.Tactic.FieldSimp
import Mathlib.Tactic.Positivity

/-
Property C49: calendar epochs in orbit messages.
-/
namespace Verif.Ccsds.Props
open Verif.Text Verif.Ccsds Verif.Calendar

/-! ### Specification -/

/-- A string of decimal digits with the given value. -/
def Digits (s : Str) (n : Nat) : Prop := s ≠ [] ∧ s.all Char.isDigit = true ∧ digitsVal s = n

/-- The text `year-month-dayThour:minute:second` of a date of the calendar, and the Julian Date it denotes:
the day number counts from noon. -/
def EpochText (e : Str) (jd : ℚ) : Prop :=
  ∃ (ys ms ds hs is ss : Str) (y m d h i : Nat) (s : ℚ),
    e = ys ++ '-' :: (ms ++ '-' :: (ds ++ 'T' :: (hs ++ ':' :: (is ++ ':' :: ss)))) ∧
    Digits ys y ∧ Digits ms m ∧ Digits ds d ∧ Digits hs h ∧ Digits is i ∧ ':' ∉ ss ∧ parseFloat ss = some (.num s) ∧
    Valid y m d ∧ y < 2 ^ 31 ∧ h < 2 ^ 32 ∧ i < 2 ^ 32 ∧
    jd = (dayNumber y m d : ℚ) - 1 / 2 + (3600 * h + 60 * i + s) / 86400

/-! ### Reading -/

theorem digits_not_mem {s : Str} {n : Nat} (h : Digits s n) {c : Char} (hc : c.isDigit = false) : c ∉ s := by
  intro hm
  have := List.all_eq_true.mp h.2.1 c hm
  rw [hc] at this
  exact absurd this (by simp)

theorem monthLength_le (y m : Nat) : monthLength y m ≤ 31 := by
  unfold monthLength
  split
  · split <;> omega
  all_goals omega

theorem dateNumber_eq {y m d : Nat} (h : Valid y m d) : dateNumber y m d = dayNumber y m d := by
  rw [← marchDay_correct h]
  obtain ⟨h1, h2, h3, h4⟩ := h
  unfold dateNumber marchDay
  have a0 : (0 : Int) ≤ 14 - m := by omega
  rw [Int.tdiv_eq_ediv_of_nonneg a0]
  have a1 : (14 - (m : Int)) / 12 = 0 ∨ (14 - (m : Int)) / 12 = 1 := by omega
  dsimp only
  rw [Int.tdiv_eq_ediv_of_nonneg (a := 153 * _ + 2) (by omega), Int.tdiv_eq_ediv_of_nonneg (by omega), Int.tdiv_eq_ediv_of_nonneg (by omega),
    Int.tdiv_eq_ediv_of_nonneg (by omega)]

theorem iso_read {e : Str} {jd : ℚ} (h : EpochText e jd) : isoToJd e = some (.num jd) := by
  obtain ⟨ys, ms, ds, hs, is, ss, y, m, d, hh, i, s, rfl, hy, hm, hd, hhs, hi, hss, hps, hv, ly, lh, li, rfl⟩ := h
  have notT : 'T' ∉ ys ++ '-' :: (ms ++ '-' :: ds) := by
    have t1 := digits_not_mem hy (c := 'T') (by decide)
    have t2 := digits_not_mem hm (c := 'T') (by decide)
    have t3 := digits_not_mem hd (c := 'T') (by decide)
    simp [t1, t2, t3]
  have hfind : find1 'T' (ys ++ '-' :: (ms ++ '-' :: (ds ++ 'T' :: (hs ++ ':' :: (is ++ ':' :: ss)))))
      = some (ys ++ '-' :: (ms ++ '-' :: ds), hs ++ ':' :: (is ++ ':' :: ss)) := by
    have := find1_append notT (hs ++ ':' :: (is ++ ':' :: ss))
    simpa [List.append_assoc] using this
  have hsplit1 : splitChar '-' (ys ++ '-' :: (ms ++ '-' :: ds)) = [ys, ms, ds] := by
    rw [splitChar_append (digits_not_mem hy (by decide)), splitChar_append (digits_not_mem hm (by decide)),
      splitChar_single (digits_not_mem hd (by decide))]
  have hsplit2 : splitChar ':' (hs ++ ':' :: (is ++ ':' :: ss)) = [hs, is, ss] := by
    rw [splitChar_append (digits_not_mem hhs (by decide)), splitChar_append (digits_not_mem hi (by decide)), splitChar_single hss]
  have hm' : m < 2 ^ 32 := by have := hv.m12; omega
  have hd' : d < 2 ^ 32 := by
    have := hv.dl
    have := monthLength_le y m
    omega
  have py : parseInt (2 ^ 31 - 1) ys = some (y : Int) := by
    have := parseInt_of (max := 2 ^ 31 - 1) hy.2.1 hy.1 (by rw [hy.2.2]; omega)
    rwa [hy.2.2] at this
  have pu : ∀ {t : Str} {n : Nat}, Digits t n → n < 2 ^ 32 → parseUInt (2 ^ 32 - 1) t = some n := by
    intro t n ht hn
    have := parseUInt_of (max := 2 ^ 32 - 1) ht.2.1 ht.1 (by rw [ht.2.2]; omega)
    rwa [ht.2.2] at this
  unfold isoToJd
  rw [hfind]
  simp only [Option.bind_some, hsplit1, hsplit2, three, py, pu hm hm', pu hd hd', pu hhs lh, pu hi li, hps, Option.map_some, F64.shift]
  rw [dateNumber_eq hv]
  congr 2
  push_cast
  ring

/-! ### Writing -/

theorem calendar_eq {j : Int} (hj : -32044 ≤ j) : calendar j = civil j := by
  obtain ⟨b0, c0, c1, c2, d0, d1, e0, e1, e2, m0, m1⟩ :=
    civil_parts (a := j + 32044) (by omega) rfl rfl rfl rfl rfl
  unfold calendar civil
  dsimp only
  rw [Int.tdiv_eq_ediv_of_nonneg (a := 4 * (j + 32044) + 3) (by omega)]
  rw [Int.tdiv_eq_ediv_of_nonneg (a := 146097 * _) (by omega)]
  rw [Int.tdiv_eq_ediv_of_nonneg (a := 4 * (j + 32044 - _) + 3) (by omega)]
  rw [Int.tdiv_eq_ediv_of_nonneg (a := 1461 * _) (by omega)]
  rw [Int.tdiv_eq_ediv_of_nonneg (a := 5 * _ + 2) (by omega)]
  rw [Int.tdiv_eq_ediv_of_nonneg (b := 10) (by omega)]
  rw [Int.tdiv_eq_ediv_of_nonneg (a := 153 * _ + 2) (by omega)]

theorem digits_pad (w n : Nat) : Digits (padLeft '0' w (natStr n)) n := by
  obtain ⟨h1, h2, h3⟩ := padZero_digits w n
  exact ⟨h2, h1, h3⟩

theorem padInt_nat (w n : Nat) : padInt w (n : Int) = padLeft '0' w (natStr n) := by
  unfold padInt
  rw [if_neg (by omega), Int.natAbs_natCast]

/-- Zero padded fixed point text reads as the printed value. -/
theorem parse_padded_fixed (p k w : Nat) : parseFloat (padLeft '0' w (fixedStr p k)) = some (.num ((k : ℚ) / 10 ^ p)) := by
  obtain ⟨a, b, h, ha, hne, hb, hl, hv⟩ := fixedStr_shape p k
  unfold padLeft
  generalize w - (fixedStr p k).length = n
  rw [h, ← List.append_assoc]
  have hra : (List.replicate n '0' ++ a).all Char.isDigit = true := by
    rw [List.all_append, ha, Bool.and_true, List.all_eq_true]
    intro c hc
    rw [List.eq_of_mem_replicate hc]; decide
  have hrne : List.replicate n '0' ++ a ≠ [] := by simp [hne]
  have hp := parseUFloat_point (a := List.replicate n '0' ++ a) (b := b) hra hb (fun h => hrne h.1)
  rw [List.append_assoc _ a b, replicate_zero_digits, hv, hl] at hp
  apply parseFloat_pos hp
  obtain ⟨c, t, hct, hc⟩ := digits_head hra hrne
  intro d hd
  rw [hct] at hd
  simp only [List.cons_append, List.head?_cons, Option.some.injEq] at hd
  subst hd
  constructor <;> (rintro rfl; simp at hc)

theorem fixed_no_colon (w p k : Nat) : ':' ∉ padLeft '0' w (fixedStr p k) := by
  intro hm
  unfold padLeft at hm
  rcases List.mem_append.mp hm with h | h
  · exact absurd (List.eq_of_mem_replicate h) (by decide)
  · rcases fixedStr_chars p k _ h with h | h
    · exact absurd h (by decide)
    · exact absurd h (by decide)

/-- Splitting the seconds of a day. -/
theorem seconds_split {t : ℚ} (h0 : 0 ≤ t) (h1 : t < 86400) :
    ∃ h i : Nat, h < 24 ∧ i < 60 ∧ ⌊t / 3600⌋.toNat % 24 = h ∧ ⌊fmod t 3600 / 60⌋.toNat = i ∧ 0 ≤ fmod t 60 ∧ fmod t 60 < 60 ∧
      t = 3600 * h + 60 * i + fmod t 60 := by
  have f0 : 0 ≤ ⌊t / 3600⌋ := Int.floor_nonneg.mpr (by positivity)
  have f1 : ⌊t / 3600⌋ < 24 := by
    rw [Int.floor_lt]
    push_cast
    rw [div_lt_iff₀ (by norm_num)]
    linarith
  have r0 := Int.floor_le (t / 3600)
  have r1 := Int.lt_floor_add_one (t / 3600)
  rw [le_div_iff₀ (by norm_num)] at r0
  rw [div_lt_iff₀ (by norm_num)] at r1
  have hr0 : 0 ≤ fmod t 3600 := by unfold fmod; linarith
  have hr1 : fmod t 3600 < 3600 := by unfold fmod; linarith
  have g0 : 0 ≤ ⌊fmod t 3600 / 60⌋ := Int.floor_nonneg.mpr (by positivity)
  have g1 : ⌊fmod t 3600 / 60⌋ < 60 := by
    rw [Int.floor_lt]
    push_cast
    rw [div_lt_iff₀ (by norm_num)]
    linarith
  have s0 := Int.floor_le (fmod t 3600 / 60)
  have s1 := Int.lt_floor_add_one (fmod t 3600 / 60)
  rw [le_div_iff₀ (by norm_num)] at s0
  rw [div_lt_iff₀ (by norm_num)] at s1
  have h60 : ⌊t / 60⌋ = 60 * ⌊t / 3600⌋ + ⌊fmod t 3600 / 60⌋ := by
    have : t / 60 = ((60 * ⌊t / 3600⌋ : ℤ) : ℚ) + fmod t 3600 / 60 := by
      unfold fmod; push_cast; ring
    conv_lhs => rw [this]
    rw [Int.floor_intCast_add]
  have hsec : fmod t 60 = t - 3600 * ⌊t / 3600⌋ - 60 * ⌊fmod t 3600 / 60⌋ := by
    conv_lhs => unfold fmod
    rw [h60]; push_cast; ring
  obtain ⟨h, hh⟩ := Int.eq_ofNat_of_zero_le f0
  obtain ⟨i, hi⟩ := Int.eq_ofNat_of_zero_le g0
  have hfm : fmod t 3600 = t - 3600 * ⌊t / 3600⌋ := rfl
  refine ⟨h, i, by omega, by omega, by omega, by omega, ?_, ?_, ?_⟩
  · rw [hsec]; linarith
  · rw [hsec]; linarith
  · rw [hsec, hh, hi]; push_cast; ring

theorem fmtFixed_nonneg {q : ℚ} (h : 0 ≤ q) (p : Nat) : fmtFixed p q = fixedStr p (roundHalfEven (|q| * 10 ^ p)) := by
  unfold fmtFixed
  rw [if_neg (not_lt.mpr h), List.nil_append]

theorem year_bound {y m d : Nat} {j : Int} (h : (dayNumber y m d : Int) = j) (hj : j < 700000000000) : y < 2 ^ 31 := by
  have h365 : ∀ y, 365 * y ≤ daysBeforeYear y := by
    intro y
    induction y with
    | zero => simp [daysBeforeYear]
    | succ y ih =>
      unfold daysBeforeYear
      split <;> omega
  have := h365 y
  unfold dayNumber at h
  omega

/-- The text written for an epoch: a date of the calendar (the one of the day number), a time of day, and
seconds to six places. Epochs from the year 0 on. -/
theorem iso_calendar {jd : ℚ} (h0 : 1721059 + 1 / 2 ≤ jd) (h1 : jd < 700000000000 - 1) :
    ∃ (y m d h i : Nat) (s : ℚ), Valid y m d ∧ y < 2 ^ 31 ∧ h < 24 ∧ i < 60 ∧ 0 ≤ s ∧ s < 60 ∧
      jd = (dayNumber y m d : ℚ) - 1 / 2 + (3600 * h + 60 * i + s) / 86400 ∧
      jdToIso jd = padLeft '0' 4 (natStr y) ++ '-' :: (padLeft '0' 2 (natStr m) ++ '-' :: (padLeft '0' 2 (natStr d) ++ 'T' ::
        (padLeft '0' 2 (natStr h) ++ ':' :: (padLeft '0' 2 (natStr i) ++ ':' :: padLeft '0' 9 (fixedStr 6 (roundHalfEven (s * 10 ^ 6))))))) := by
  have hj : 1721060 ≤ ⌊jd + 1 / 2⌋ := by
    rw [Int.le_floor]; push_cast; linarith
  have hj' : ⌊jd + 1 / 2⌋ < 700000000000 := by
    rw [Int.floor_lt]; push_cast; linarith
  obtain ⟨y, m, d, hc, hv, hn⟩ := civil_correct hj
  have q0 := Int.floor_le (jd + 1 / 2)
  have q1 := Int.lt_floor_add_one (jd + 1 / 2)
  obtain ⟨h, i, hh, hi, eh, ei, s0, s1, ht⟩ := seconds_split (t := (jd + 1 / 2 - ⌊jd + 1 / 2⌋) * 86400) (by linarith) (by linarith)
  refine ⟨y, m, d, h, i, _, hv, year_bound hn hj', hh, hi, s0, s1, ?_, ?_⟩
  · rw [← ht]
    have : (dayNumber y m d : ℚ) = (⌊jd + 1 / 2⌋ : ℚ) := by exact_mod_cast congrArg (Int.cast : Int → ℚ) hn
    rw [this]
    ring
  · unfold jdToIso
    dsimp only
    rw [calendar_eq (by omega), hc]
    dsimp only
    rw [eh, ei, padInt_nat, padInt_nat, padInt_nat, fmtFixed_nonneg s0, abs_of_nonneg s0]

/-- The text written is read as the Julian Date, to half a microsecond. -/
theorem iso_round_trip {jd : ℚ} (h0 : 1721059 + 1 / 2 ≤ jd) (h1 : jd < 700000000000 - 1) :
    ∃ jd', EpochText (jdToIso jd) jd' ∧ isoToJd (jdToIso jd) = some (.num jd') ∧ |jd' - jd| * 86400 ≤ 1 / 2 / 10 ^ 6 := by
  obtain ⟨y, m, d, h, i, s, hv, hy, hh, hi, s0, s1, ht, htext⟩ := iso_calendar h0 h1
  have hE : EpochText (jdToIso jd)
      ((dayNumber y m d : ℚ) - 1 / 2 + (3600 * h + 60 * i + (roundHalfEven (s * 10 ^ 6) : ℚ) / 10 ^ 6) / 86400) := by
    refine ⟨_, _, _, _, _, _, y, m, d, h, i, _, htext, digits_pad _ _, digits_pad _ _, digits_pad _ _, digits_pad _ _, digits_pad _ _,
      fixed_no_colon _ _ _, parse_padded_fixed _ _ _, hv, hy, by omega, by omega, rfl⟩
  refine ⟨_, hE, iso_read hE, ?_⟩
  have hr := abs_le.mp (roundHalfEven_spec (s * 10 ^ 6) (by positivity))
  generalize (roundHalfEven (s * 10 ^ 6) : ℚ) = k at hr
  conv_lhs => rw [ht]
  have : (dayNumber y m d : ℚ) - 1 / 2 + (3600 * h + 60 * i + k / 10 ^ 6) / 86400 -
      ((dayNumber y m d : ℚ) - 1 / 2 + (3600 * h + 60 * i + s) / 86400) = (k - s * 10 ^ 6) / 10 ^ 6 / 86400 := by ring
  rw [this, abs_div, abs_div, abs_of_pos (show (0 : ℚ) < 86400 by norm_num), abs_of_pos (show (0 : ℚ) < 10 ^ 6 by norm_num)]
  rw [div_mul_cancel₀ _ (by norm_num)]
  exact div_le_div_of_nonneg_right (abs_le.mpr hr) (by positivity)

/-! ### Disagreements -/

/-- The seconds may be printed as sixty, which no clock shows. -/
theorem iso_sixty_seconds :
    jdToIso (2451545 + (5999999960 / 10 ^ 8) / 86400) = "2000-01-01T12:00:60.000000".toList := by decide +kernel

/-- Years before 0 are written with a minus sign, which the reader takes as a separator. -/
theorem iso_negative_year : jdToIso 1721059 = "-001-12-31T12:00:00.000000".toList ∧ isoToJd (jdToIso 1721059) = none := by
  decide +kernel

/-- Impossible dates and times are accepted, and seconds that are not a number. -/
theorem iso_accepts_nonsense :
    isoToJd "2023-02-30T99:99:00".toList ≠ none ∧ isoToJd "2023-13-77-junkT00:00:00:junk".toList ≠ none ∧
    isoToJd "2023-01-01T00:00:nan".toList = some .nan := by
  decide +kernel

/-- The epoch J2000. -/
example : jdToIso 2451545 = "2000-01-01T12:00:00.000000".toList ∧ isoToJd (jdToIso 2451545) = some (.num 2451545) := by
  decide +kernel

end Verif.Ccsds.Props
