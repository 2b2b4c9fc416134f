import Verif.Calendar.Spec

/-
Calendar algorithms used in the code, against the specification.
-/
namespace Verif.Calendar

/-- Day number from a year beginning in March (the formula of `iso8601_to_jd`), with floor division. -/
def marchDay (y m d : Int) : Int :=
  let a := (14 - m) / 12
  let yy := y + 4800 - a
  let mm := m + 12 * a - 3
  d + (153 * mm + 2) / 5 + 365 * yy + yy / 4 - yy / 100 + yy / 400 - 32045

set_option maxHeartbeats 1000000 in
theorem marchDay_correct {y m d : Nat} (h : Valid y m d) : marchDay y m d = dayNumber y m d := by
  obtain ⟨h1, h2, h3, h4⟩ := h
  unfold dayNumber
  push_cast
  rw [Nat.cast_sub h3, daysBeforeYear_eq y]
  have a1 : ((y : Int) + 4800 - 1) / 4 = (y + 3) / 4 + 1199 := by omega
  have a2 : ((y : Int) + 4800 - 1) / 100 = (y + 99) / 100 + 47 := by omega
  have a3 : ((y : Int) + 4800 - 1) / 400 = (y + 399) / 400 + 11 := by omega
  have b1 : ((y : Int) + 4800) / 4 = y / 4 + 1200 := by omega
  have b2 : ((y : Int) + 4800) / 100 = y / 100 + 48 := by omega
  have b3 : ((y : Int) + 4800) / 400 = y / 400 + 12 := by omega
  have hl : ((y : Int) + 3) / 4 - (y + 99) / 100 + (y + 399) / 400 + (if Leap y then 1 else 0) = y / 4 - y / 100 + y / 400 + 1 := by
    by_cases hl : Leap y
    · rw [if_pos hl]; unfold Leap at hl; omega
    · rw [if_neg hl]; unfold Leap at hl; omega
  unfold marchDay
  generalize ((y : Int) + 3) / 4 = p1 at *
  generalize ((y : Int) + 99) / 100 = p2 at *
  generalize ((y : Int) + 399) / 400 = p3 at *
  generalize hq1 : (y : Int) / 4 = q1 at *
  generalize hq2 : (y : Int) / 100 = q2 at *
  generalize hq3 : (y : Int) / 400 = q3 at *
  clear hq1 hq2 hq3 h4
  by_cases hleap : Leap y
  · rw [if_pos hleap] at hl
    interval_cases m <;> norm_num [daysOfMonths, monthLength, hleap] <;> simp only [a1, a2, a3, b1, b2, b3] <;>
      clear a1 a2 a3 b1 b2 b3 <;> omega
  · rw [if_neg hleap] at hl
    interval_cases m <;> norm_num [daysOfMonths, monthLength, hleap] <;> simp only [a1, a2, a3, b1, b2, b3] <;>
      clear a1 a2 a3 b1 b2 b3 <;> omega

/-- The year, month and day of a day number (the formula of `jd_to_iso8601`), with floor division. -/
def civil (j : Int) : Int × Int × Int :=
  let a := j + 32044
  let b := (4 * a + 3) / 146097
  let c := a - (146097 * b) / 4
  let d := (4 * c + 3) / 1461
  let e := c - (1461 * d) / 4
  let m := (5 * e + 2) / 153
  (100 * b + d - 4800 + m / 10, m + 3 - 12 * (m / 10), e - (153 * m + 2) / 5 + 1)

theorem civil_parts {a b c d e m : Int} (ha : 0 ≤ a) (hb : b = (4 * a + 3) / 146097) (hc : c = a - (146097 * b) / 4)
    (hd : d = (4 * c + 3) / 1461) (he : e = c - (1461 * d) / 4) (hm : m = (5 * e + 2) / 153) :
    0 ≤ b ∧ 0 ≤ c ∧ c ≤ 36524 ∧ (c = 36524 → b % 4 = 3) ∧ 0 ≤ d ∧ d ≤ 99 ∧ 0 ≤ e ∧ e ≤ 365 ∧
      (e = 365 → d % 4 = 3 ∧ (d = 99 → b % 4 = 3)) ∧ 0 ≤ m ∧ m ≤ 11 := by
  have b0 : 0 ≤ b := by omega
  have c0 : 0 ≤ c ∧ c ≤ 36524 ∧ (c = 36524 → b % 4 = 3) := by
    have : 4 * a + 3 = 146097 * b + (4 * a + 3) % 146097 := by omega
    have r := Int.emod_nonneg (4 * a + 3) (by norm_num : (146097 : Int) ≠ 0)
    have r' := Int.emod_lt_of_pos (4 * a + 3) (by norm_num : (0 : Int) < 146097)
    obtain ⟨q, s, hs, hq⟩ : ∃ q s : Int, (s = 0 ∨ s = 1 ∨ s = 2 ∨ s = 3) ∧ b = 4 * q + s := ⟨b / 4, b % 4, by omega, by omega⟩
    have hcs : c = a - 146097 * q - 36524 * s := by
      rw [hc, hq]
      rcases hs with rfl | rfl | rfl | rfl <;> omega
    clear hc hd he hm
    refine ⟨?_, ?_, ?_⟩
    · rcases hs with rfl | rfl | rfl | rfl <;> omega
    · rcases hs with rfl | rfl | rfl | rfl <;> omega
    · intro h
      rcases hs with rfl | rfl | rfl | rfl <;> omega
  have d0 : 0 ≤ d ∧ d ≤ 99 := by omega
  have e0 : 0 ≤ e ∧ e ≤ 365 := by omega
  refine ⟨b0, c0.1, c0.2.1, c0.2.2, d0.1, d0.2, e0.1, e0.2, ?_, by omega, by omega⟩
  intro h
  constructor
  · omega
  · intro h99
    apply c0.2.2
    omega

theorem month_fit {e m : Int} {y mo dd : Nat} (m0 : 0 ≤ m) (m1 : m ≤ 10) (hm : m = (5 * e + 2) / 153) (he : e ≤ 365)
    (hmo : m + 3 - 12 * (m / 10) = mo) (hdd : e - (153 * m + 2) / 5 + 1 = dd) : dd ≤ monthLength y mo := by
  have : m = 0 ∨ m = 1 ∨ m = 2 ∨ m = 3 ∨ m = 4 ∨ m = 5 ∨ m = 6 ∨ m = 7 ∨ m = 8 ∨ m = 9 ∨ m = 10 := by omega
  rcases this with h | h | h | h | h | h | h | h | h | h | h <;> subst h <;> norm_num at hmo <;>
    obtain rfl := (by exact_mod_cast hmo.symm : mo = _) <;> simp only [monthLength] <;> omega

set_option maxHeartbeats 2000000 in
/-- The date found is one of the calendar and has the given day number. -/
theorem civil_correct {j : Int} (hj : 1721060 ≤ j) :
    ∃ y m d : Nat, civil j = ((y : Int), (m : Int), (d : Int)) ∧ Valid y m d ∧ (dayNumber y m d : Int) = j := by
  obtain ⟨a, ha⟩ : ∃ a, a = j + 32044 := ⟨_, rfl⟩
  obtain ⟨b, hb⟩ : ∃ b, b = (4 * a + 3) / 146097 := ⟨_, rfl⟩
  obtain ⟨c, hc⟩ : ∃ c, c = a - (146097 * b) / 4 := ⟨_, rfl⟩
  obtain ⟨d, hd⟩ : ∃ d, d = (4 * c + 3) / 1461 := ⟨_, rfl⟩
  obtain ⟨e, he⟩ : ∃ e, e = c - (1461 * d) / 4 := ⟨_, rfl⟩
  obtain ⟨m, hm⟩ : ∃ m, m = (5 * e + 2) / 153 := ⟨_, rfl⟩
  have hciv : civil j = (100 * b + d - 4800 + m / 10, m + 3 - 12 * (m / 10), e - (153 * m + 2) / 5 + 1) := by
    unfold civil
    simp only [← ha, ← hb, ← hc, ← hd, ← he, ← hm]
  obtain ⟨b0, c0, c1, c2, d0, d1, e0, e1, e2, m0, m1⟩ := civil_parts (by omega) hb hc hd he hm
  have hyear : 0 ≤ 100 * b + d - 4800 + m / 10 := by
    by_contra hneg
    have hy : 100 * b + d ≤ 4799 := by omega
    have hb' : b ≤ 47 := by omega
    -- then the day lies before 1 January of year 0
    have hcc : a = c + (146097 * b) / 4 := by omega
    have hee : c = e + (1461 * d) / 4 := by omega
    by_cases hlast : b = 47 ∧ d = 99
    · obtain ⟨rfl, rfl⟩ := hlast
      have : m ≤ 9 := by omega
      omega
    · by_cases b47 : b = 47
      · subst b47; omega
      · omega
  obtain ⟨y, hy⟩ := Int.eq_ofNat_of_zero_le hyear
  obtain ⟨mo, hmo⟩ := Int.eq_ofNat_of_zero_le (show 0 ≤ m + 3 - 12 * (m / 10) by omega)
  obtain ⟨dd, hdd⟩ := Int.eq_ofNat_of_zero_le (show 0 ≤ e - (153 * m + 2) / 5 + 1 by omega)
  have hvalid : Valid y mo dd := by
    refine ⟨by omega, by omega, by omega, ?_⟩
    have hleap : e = 365 → Leap y := by
      intro h365
      obtain ⟨k1, k2⟩ := e2 h365
      have : m = 11 := by omega
      subst this
      unfold Leap
      by_cases h99 : d = 99
      · have := k2 h99
        right
        omega
      · left
        constructor <;> omega
    by_cases h11 : m = 11
    · have hmo2 : mo = 2 := by omega
      subst hmo2
      unfold monthLength
      by_cases hl : Leap y
      · simp only [hl, if_true]; omega
      · have : e ≠ 365 := fun h' => hl (hleap h')
        simp only [hl, if_false]; omega
    · exact month_fit m0 (by omega) hm e1 hmo hdd
  refine ⟨y, mo, dd, by rw [hciv, hy, hmo, hdd], hvalid, ?_⟩
  rw [← marchDay_correct hvalid]
  unfold marchDay
  simp only
  have hmy : (14 - (mo : Int)) / 12 = m / 10 := by omega
  rw [hmy]
  have hyy : (y : Int) + 4800 - m / 10 = 100 * b + d := by omega
  have hmm : (mo : Int) + 12 * (m / 10) - 3 = m := by omega
  rw [hyy, hmm]
  have q1 : (100 * b + d) / 100 = b := by omega
  have q2 : (100 * b + d) / 400 = b / 4 := by omega
  have q3 : (100 * b + d) / 4 = 25 * b + d / 4 := by omega
  rw [q1, q2, q3]
  have q4 : (146097 * b) / 4 = 36524 * b + b / 4 := by omega
  have q5 : (1461 * d) / 4 = 365 * d + d / 4 := by omega
  rw [q4] at hc
  rw [q5] at he
  omega

/-- Year, month and day by the formula of Fliegel and Van Flandern, with floor division. -/
def fliegel (j : Int) : Int × Int × Int :=
  let l := j + 68569
  let n := (4 * l) / 146097
  let l2 := l - (146097 * n + 3) / 4
  let i := (4000 * (l2 + 1)) / 1461001
  let l3 := l2 - (1461 * i) / 4 + 31
  let k := (80 * l3) / 2447
  let l4 := k / 11
  (100 * (n - 49) + i + l4, k + 2 - 12 * l4, l3 - (2447 * k) / 80)

theorem fliegel_month {e : Int} (h0 : 0 ≤ e) (h1 : e ≤ 365) : (80 * (e + 31)) / 2447 = (5 * e + 2) / 153 + 1 := by
  obtain ⟨n, rfl⟩ := Int.eq_ofNat_of_zero_le h0
  have hn : n < 366 := by omega
  have key : ∀ n : Fin 366, (80 * ((n : Nat) + 31)) / 2447 = (5 * (n : Nat) + 2) / 153 + 1 := by decide +kernel
  have := key ⟨n, hn⟩
  simp only at this
  omega

theorem fliegel_eq {j : Int} (hj : -32044 ≤ j) : fliegel j = civil j := by
  obtain ⟨a, ha⟩ : ∃ a, a = j + 32044 := ⟨_, rfl⟩
  obtain ⟨b, hb⟩ : ∃ b, b = (4 * a + 3) / 146097 := ⟨_, rfl⟩
  obtain ⟨c, hc⟩ : ∃ c, c = a - (146097 * b) / 4 := ⟨_, rfl⟩
  obtain ⟨d, hd⟩ : ∃ d, d = (4 * c + 3) / 1461 := ⟨_, rfl⟩
  obtain ⟨e, he⟩ : ∃ e, e = c - (1461 * d) / 4 := ⟨_, rfl⟩
  obtain ⟨m, hm⟩ : ∃ m, m = (5 * e + 2) / 153 := ⟨_, rfl⟩
  obtain ⟨b0, c0, c1, c2, d0, d1, e0, e1, e2, m0, m1⟩ := civil_parts (by omega) hb hc hd he hm
  have hn : (4 * (j + 68569)) / 146097 = b + 1 := by omega
  have hl2 : j + 68569 - (146097 * (b + 1) + 3) / 4 = c := by omega
  have hi : (4000 * (c + 1)) / 1461001 = d := by omega
  have hl3 : c - (1461 * d) / 4 + 31 = e + 31 := by omega
  have hk : (80 * (e + 31)) / 2447 = m + 1 := by rw [fliegel_month e0 e1, hm]
  unfold fliegel civil
  simp only [hn, hl2, hi, hl3, hk, ← ha, ← hb, ← hc, ← hd, ← he, ← hm]
  have : m = 0 ∨ m = 1 ∨ m = 2 ∨ m = 3 ∨ m = 4 ∨ m = 5 ∨ m = 6 ∨ m = 7 ∨ m = 8 ∨ m = 9 ∨ m = 10 ∨ m = 11 := by omega
  refine Prod.ext ?_ (Prod.ext ?_ ?_) <;> simp only <;>
    rcases this with rfl | rfl | rfl | rfl | rfl | rfl | rfl | rfl | rfl | rfl | rfl | rfl <;> omega

/-- A day number determines the date. -/
theorem dayNumber_mono {y m d y' m' d' : Nat} (h : Valid y m d) (h' : Valid y' m' d')
    (hlt : y < y' ∨ (y = y' ∧ (m < m' ∨ (m = m' ∧ d < d')))) : dayNumber y m d < dayNumber y' m' d' := by
  have hmono : ∀ (y m m' : Nat), m ≤ m' → daysOfMonths y m ≤ daysOfMonths y m' := by
    intro y m m' hm
    induction m' with
    | zero => rw [Nat.le_zero.mp hm]
    | succ k ih =>
      rcases Nat.lt_or_ge m (k + 1) with hk | hk
      · have := ih (by omega)
        show _ ≤ daysOfMonths y k + monthLength y (k + 1)
        omega
      · rw [show m = k + 1 by omega]
  have hbefore : ∀ {y m d : Nat}, Valid y m d → daysOfMonths y (m - 1) + (d - 1) < daysOfMonths y m := by
    intro y m d hv
    obtain ⟨k, rfl⟩ : ∃ k, m = k + 1 := ⟨m - 1, by have := hv.m1; omega⟩
    have h1 := hv.d1
    have h2 := hv.dl
    rw [show k + 1 - 1 = k by omega]
    show daysOfMonths y k + (d - 1) < daysOfMonths y k + monthLength y (k + 1)
    omega
  have hyearlen : ∀ y, daysOfMonths y 12 = if Leap y then 366 else 365 := by
    intro y
    by_cases hl : Leap y <;> simp [daysOfMonths, monthLength, hl]
  have hyears : ∀ y y', y < y' → daysBeforeYear y + daysOfMonths y 12 ≤ daysBeforeYear y' := by
    intro y y' hlt
    induction y' with
    | zero => omega
    | succ k ih =>
      rcases Nat.lt_or_ge y k with hk | hk
      · have := ih hk
        show _ ≤ daysBeforeYear k + _
        omega
      · rw [show k = y by omega, hyearlen]
        exact le_refl _
  unfold dayNumber
  rcases hlt with hy | ⟨rfl, hm | ⟨rfl, hd⟩⟩
  · have a1 := hbefore h
    have a2 := hmono y m 12 h.m12
    have a3 := hyears y y' hy
    omega
  · have a1 := hbefore h
    have a2 := hmono y m (m' - 1) (by omega)
    omega
  · have := h.d1
    omega

theorem dayNumber_injective {y m d y' m' d' : Nat} (h : Valid y m d) (h' : Valid y' m' d')
    (heq : dayNumber y m d = dayNumber y' m' d') : y = y' ∧ m = m' ∧ d = d' := by
  by_contra hne
  rcases Nat.lt_trichotomy y y' with hy | hy | hy
  · have := dayNumber_mono h h' (Or.inl hy); omega
  · subst hy
    rcases Nat.lt_trichotomy m m' with hm | hm | hm
    · have := dayNumber_mono h h' (Or.inr ⟨rfl, Or.inl hm⟩); omega
    · subst hm
      rcases Nat.lt_trichotomy d d' with hd | hd | hd
      · have := dayNumber_mono h h' (Or.inr ⟨rfl, Or.inr ⟨rfl, hd⟩⟩); omega
      · exact hne ⟨rfl, rfl, hd⟩
      · have := dayNumber_mono h' h (Or.inr ⟨rfl, Or.inr ⟨rfl, hd⟩⟩); omega
    · have := dayNumber_mono h' h (Or.inr ⟨rfl, Or.inl hm⟩); omega
  · have := dayNumber_mono h' h (Or.inl hy); omega

/-- The first day of the Modified Julian Date and the last day of a leap century. -/
example : civil 2400001 = (1858, 11, 17) ∧ civil 2451604 = (2000, 2, 29) := by decide +kernel

end Verif.Calendar
