import Verif.Naming.Model
import Verif.Calendar.Lemmas
import Verif.Rinex.Write

/-
C58: the names of product files.
-/
namespace Verif.Naming.Spec
open Verif.Text Verif.Calendar

/-- The date is the GPS epoch or later. -/
def SinceGps (y m d : Nat) : Prop := y > 1980 ∨ (y = 1980 ∧ (m > 1 ∨ (m = 1 ∧ d ≥ 6)))

/-- Sunday is 0: the Julian day 0 is a Monday. -/
def weekday (y m d : Nat) : Nat := (dayNumber y m d + 1) % 7

/-- The seconds of the unit of a sample token. -/
def unitOf : Char → Nat
  | 'S' => 1
  | 'M' => 60
  | _ => 3600

/-- The name of a product with a GPS week and a day. -/
structure ShortName (name ac : Str) (week day : Nat) : Prop where
  shape : ∃ w : Str, name = ac ++ w ++ [digitChar day] ++ ".sp3".toList ∧ w.all Char.isDigit = true ∧ digitsVal w = week ∧ 4 ≤ w.length ∧
    (week < 10 ^ 4 → w.length = 4)
  day : day < 7

end Verif.Naming.Spec

namespace Verif.Naming.Props
open Verif.Text Verif.Sp3 Verif.Rinex Verif.Rinex.Props Verif.Calendar Verif.Naming Verif.Naming.Spec

theorem valid_gps : Valid 1980 1 6 := ⟨by decide, by decide, by decide, by decide⟩

theorem since_nonneg_iff {y m d : Nat} (h : Valid y m d) : 0 ≤ sinceGps y m d ↔ SinceGps y m d := by
  unfold sinceGps SinceGps
  constructor
  · intro hn
    by_contra hc
    have := h.m1
    have : dayNumber y m d < dayNumber 1980 1 6 := by
      apply dayNumber_mono h valid_gps
      omega
    omega
  · intro hs
    by_cases he : y = 1980 ∧ m = 1 ∧ d = 6
    · obtain ⟨rfl, rfl, rfl⟩ := he
      omega
    · have : dayNumber 1980 1 6 < dayNumber y m d := by
        apply dayNumber_mono valid_gps h
        omega
      omega

theorem padZero_length4 {n : Nat} (h : n < 10 ^ 4) : (padLeft '0' 4 (natStr n)).length = 4 := by
  rw [padLeft_length]
  have := natStr_length_le 3 n h
  omega

theorem natStr_digit {n : Nat} (h : n < 10) : natStr n = [digitChar n] := by
  have : ∀ n : Fin 10, natStr n = [digitChar n] := by decide +kernel
  exact this ⟨n, h⟩

/-- C58: from the GPS epoch on, the name holds the week and the weekday, which give the date by counting. -/
theorem short_name_spec (ac : Str) {y m d : Nat} (h : Valid y m d) (hg : SinceGps y m d) :
    ∃ week, ShortName (shortName ac y m d) ac week (weekday y m d) ∧ dayNumber y m d = dayNumber 1980 1 6 + 7 * week + weekday y m d := by
  have h0 := (since_nonneg_iff h).2 hg
  obtain ⟨n, hn⟩ := Int.eq_ofNat_of_zero_le h0
  have hd : dayNumber y m d = 2444245 + n := by
    unfold sinceGps at hn
    have : dayNumber 1980 1 6 = 2444245 := by decide +kernel
    omega
  have hw : weekday y m d = n % 7 := by unfold weekday; omega
  have e1 : (sinceGps y m d).tdiv 7 = ((n / 7 : Nat) : Int) := by rw [hn]; rfl
  have e2 : (sinceGps y m d).tmod 7 = ((n % 7 : Nat) : Int) := by rw [hn]; rfl
  obtain ⟨p1, p2, p3⟩ := padZero_digits 4 (n / 7)
  refine ⟨n / 7, ⟨⟨padLeft '0' 4 (natStr (n / 7)), ?_, p1, p3, ?_, padZero_length4⟩, by omega⟩, ?_⟩
  · unfold shortName
    rw [e1, e2, hw]
    have : padInt 4 ((n / 7 : Nat) : Int) = padLeft '0' 4 (natStr (n / 7)) := by
      unfold padInt
      rw [if_neg (by omega), Int.natAbs_natCast]
    have i2 : intStr ((n % 7 : Nat) : Int) = [digitChar (n % 7)] := by
      unfold intStr
      rw [if_neg (by omega), Int.natAbs_natCast, natStr_digit (by omega)]
    rw [this, i2]
    simp
  · rw [padLeft_length]; omega
  · have : dayNumber 1980 1 6 = 2444245 := by decide +kernel
    omega

theorem digitChar_inj {a b : Nat} (ha : a < 10) (hb : b < 10) (h : digitChar a = digitChar b) : a = b := by
  have := congrArg digitVal h
  rwa [digitChar_val ha, digitChar_val hb] at this

/-- C58: from the GPS epoch on, two dates with the same name under one analysis centre are the same date. -/
theorem short_name_unique (ac : Str) {y m d y' m' d' : Nat} (h : Valid y m d) (h' : Valid y' m' d') (hg : SinceGps y m d)
    (hg' : SinceGps y' m' d') (he : shortName ac y m d = shortName ac y' m' d') : y = y' ∧ m = m' ∧ d = d' := by
  obtain ⟨w, ⟨⟨s, hs, -, hv, -⟩, hd⟩, hn⟩ := short_name_spec ac h hg
  obtain ⟨w', ⟨⟨s', hs', -, hv', -⟩, hd'⟩, hn'⟩ := short_name_spec ac h' hg'
  rw [hs, hs'] at he
  have h1 := List.append_cancel_right he
  obtain ⟨h2, h3⟩ := List.append_inj' h1 rfl
  have h4 := List.append_cancel_left h2
  subst h4
  have h5 := digitChar_inj (by omega) (by omega) (List.cons.inj h3).1
  exact dayNumber_injective h h' (by omega)

/-- Two centres with codes of one length and products of weeks below 10000 do not share a name either. -/
theorem short_name_unique_centres {ac ac' : Str} (hl : ac.length = ac'.length) {y m d y' m' d' : Nat} (h : Valid y m d) (h' : Valid y' m' d')
    (hg : SinceGps y m d) (hg' : SinceGps y' m' d') (he : shortName ac y m d = shortName ac' y' m' d') :
    ac = ac' ∧ y = y' ∧ m = m' ∧ d = d' := by
  have : ac = ac' := by
    unfold shortName at he
    exact (List.append_inj he hl).1
  subst this
  exact ⟨rfl, short_name_unique ac h h' hg hg' he⟩

/-- C58, the boundary: before the GPS epoch every name has a minus sign. -/
theorem before_gps_minus (ac : Str) {y m d : Nat} (h : Valid y m d) (hg : ¬ SinceGps y m d) :
    ∃ a b : Str, shortName ac y m d = ac ++ a ++ '-' :: b := by
  have h0 : sinceGps y m d < 0 := by
    have := since_nonneg_iff h
    by_contra hc
    exact hg (this.1 (by omega))
  obtain ⟨n, hn⟩ : ∃ n : Nat, sinceGps y m d = -(n : Int) := ⟨(-(sinceGps y m d)).toNat, by omega⟩
  have hn0 : 0 < n := by omega
  have e1 : (sinceGps y m d).tdiv 7 = -((n / 7 : Nat) : Int) := by rw [hn, Int.neg_tdiv]; rfl
  have e2 : (sinceGps y m d).tmod 7 = -((n % 7 : Nat) : Int) := by rw [hn, Int.neg_tmod]; rfl
  unfold shortName
  rw [e1, e2]
  by_cases hw : 0 < n / 7
  · refine ⟨[], padLeft '0' 3 (natStr (-((n / 7 : Nat) : Int)).natAbs) ++ (intStr (-((n % 7 : Nat) : Int)) ++ ".sp3".toList), ?_⟩
    have : padInt 4 (-((n / 7 : Nat) : Int)) = '-' :: padLeft '0' 3 (natStr (-((n / 7 : Nat) : Int)).natAbs) := by
      unfold padInt
      rw [if_pos (by omega)]
    rw [this]
    simp
  · refine ⟨padInt 4 (-((n / 7 : Nat) : Int)), natStr (-((n % 7 : Nat) : Int)).natAbs ++ ".sp3".toList, ?_⟩
    have : intStr (-((n % 7 : Nat) : Int)) = '-' :: natStr (-((n % 7 : Nat) : Int)).natAbs := by
      unfold intStr
      rw [if_pos (by omega)]
    rw [this]
    simp

example : shortName "igs".toList 2024 1 1 = "igs22951.sp3".toList ∧ shortName "igs".toList 1980 1 6 = "igs00000.sp3".toList ∧
    shortName "igs".toList 1980 1 5 = "igs0000-1.sp3".toList ∧ shortName "igs".toList 1979 12 30 = "igs-0010.sp3".toList := by
  decide +kernel

/-! ### Sample tokens -/

theorem token_shape (s : Nat) : ∃ n c, sampleToken s = padLeft '0' 2 (natStr n) ++ [c] ∧ n = s / unitOf c ∧
    (s < 360000 ↔ n < 100) := by
  unfold sampleToken
  split
  · exact ⟨s, 'S', rfl, by simp [unitOf], by constructor <;> omega⟩
  · split
    · exact ⟨s / 60, 'M', rfl, rfl, by constructor <;> omega⟩
    · exact ⟨s / 3600, 'H', rfl, rfl, by constructor <;> omega⟩

/-- C58: a sample token has three characters exactly for intervals below a hundred hours. -/
theorem token_three_iff (s : Nat) : (sampleToken s).length = 3 ↔ s < 360000 := by
  obtain ⟨n, c, h1, h2, h3⟩ := token_shape s
  rw [h1, h3, List.length_append, padLeft_length, List.length_singleton]
  constructor
  · intro h
    by_contra hn
    have := natStr_length_gt 2 n (by omega)
    omega
  · intro h
    have := natStr_length_le 1 n h
    omega

/-- C58, the violation: the intervals of a hundred hours and more have longer tokens. -/
theorem long_tokens {s : Nat} (h : 360000 ≤ s) : 4 ≤ (sampleToken s).length := by
  have h1 := token_three_iff s
  obtain ⟨n, c, h2, h3, h4⟩ := token_shape s
  have : 3 ≤ (sampleToken s).length := by
    rw [h2, List.length_append, padLeft_length, List.length_singleton]
    omega
  omega

example : sampleToken 360000 = "100H".toList ∧ sampleToken 900 = "15M".toList ∧ sampleToken 4294967295 = "1193046H".toList := by decide +kernel

/-- C58: what a token says: a number of units, rounded down to a whole unit. -/
theorem token_value (s : Nat) : ∃ w c, sampleToken s = w ++ [c] ∧ w.all Char.isDigit = true ∧ c ∈ ['S', 'M', 'H'] ∧
    digitsVal w * unitOf c ≤ s ∧ s < digitsVal w * unitOf c + unitOf c ∧ (unitOf c = 1 ∨ unitOf c ≤ s) := by
  unfold sampleToken
  split
  · obtain ⟨p1, -, p3⟩ := padZero_digits 2 s
    refine ⟨_, 'S', rfl, p1, by decide, ?_, ?_, Or.inl rfl⟩ <;> rw [p3] <;> simp [unitOf]
  · split
    · obtain ⟨p1, -, p3⟩ := padZero_digits 2 (s / 60)
      refine ⟨_, 'M', rfl, p1, by decide, ?_, ?_, Or.inr ?_⟩ <;> (try rw [p3]) <;> simp only [unitOf] <;> omega
    · obtain ⟨p1, -, p3⟩ := padZero_digits 2 (s / 3600)
      have u : unitOf 'H' = 3600 := rfl
      refine ⟨_, 'H', rfl, p1, by decide, ?_, ?_, Or.inr ?_⟩ <;> (try rw [p3]) <;> rw [u] <;> omega

/-- Two intervals share a token, for instance a minute and a minute and a half. -/
theorem token_not_injective : sampleToken 60 = sampleToken 90 := by decide +kernel

theorem padZero_inj {w a b : Nat} (h : padLeft '0' w (natStr a) = padLeft '0' w (natStr b)) : a = b := by
  have := congrArg digitsVal h
  rwa [(padZero_digits w a).2.2, (padZero_digits w b).2.2] at this

/-! ### Long names -/

theorem padInt_nat (w n : Nat) : padInt w (n : Int) = padLeft '0' w (natStr n) := by
  unfold padInt
  rw [if_neg (by omega), Int.natAbs_natCast]

theorem padZero_length {w n : Nat} (h : n < 10 ^ (w + 1)) : (padLeft '0' (w + 1) (natStr n)).length = w + 1 := by
  rw [padLeft_length]
  have := natStr_length_le w n h
  omega

/-- The widths that the documentation asks of the fields. -/
structure _root_.Verif.Naming.Spec.Widths (ac campaign span sample fileType : Str) (year doy hour minute : Nat) : Prop where
  ac : ac.length = 3
  campaign : campaign.length = 6
  span : span.length = 3
  sample : sample.length = 3
  fileType : fileType.length = 3
  year : year ≤ 9999
  doy : doy ≤ 366
  hour : hour < 24
  minute : minute < 60

/-- C58: a long name determines all its fields. -/
theorem lfn_injective {ac ac' : Str} {v v' : Char} {cg cg' : Str} {y y' doy doy' h h' m m' : Nat} {sp sp' sm sm' ft ft' ext ext' : Str}
    (w : Widths ac cg sp sm ft y doy h m) (w' : Widths ac' cg' sp' sm' ft' y' doy' h' m')
    (he : lfn ac v cg y doy h m sp sm ft ext = lfn ac' v' cg' y' doy' h' m' sp' sm' ft' ext') :
    ac = ac' ∧ v = v' ∧ cg = cg' ∧ y = y' ∧ doy = doy' ∧ h = h' ∧ m = m' ∧ sp = sp' ∧ sm = sm' ∧ ft = ft' ∧ ext = ext' := by
  unfold lfn at he
  simp only [padInt_nat, two] at he
  have l4 : ∀ n, n ≤ 9999 → (padLeft '0' 4 (natStr n)).length = 4 := fun n h => padZero_length (by omega)
  have l3 : ∀ n, n ≤ 366 → (padLeft '0' 3 (natStr n)).length = 3 := fun n h => padZero_length (by omega)
  have l2 : ∀ n, n < 60 → (padLeft '0' 2 (natStr n)).length = 2 := fun n h => padZero_length (by omega)
  obtain ⟨h1, he⟩ := List.append_inj he (by rw [w.ac, w'.ac])
  obtain ⟨h2, he⟩ := List.cons.inj he
  obtain ⟨h3, he⟩ := List.append_inj he (by rw [w.campaign, w'.campaign])
  obtain ⟨-, he⟩ := List.cons.inj he
  obtain ⟨h4, he⟩ := List.append_inj he (by rw [l4 _ w.year, l4 _ w'.year])
  obtain ⟨h5, he⟩ := List.append_inj he (by rw [l3 _ w.doy, l3 _ w'.doy])
  obtain ⟨h6, he⟩ := List.append_inj he (by rw [l2 _ (by have := w.hour; omega), l2 _ (by have := w'.hour; omega)])
  obtain ⟨h7, he⟩ := List.append_inj he (by rw [l2 _ w.minute, l2 _ w'.minute])
  obtain ⟨-, he⟩ := List.cons.inj he
  obtain ⟨h8, he⟩ := List.append_inj he (by rw [w.span, w'.span])
  obtain ⟨-, he⟩ := List.cons.inj he
  obtain ⟨h9, he⟩ := List.append_inj he (by rw [w.sample, w'.sample])
  obtain ⟨-, he⟩ := List.cons.inj he
  obtain ⟨h10, he⟩ := List.append_inj he (by rw [w.fileType, w'.fileType])
  obtain ⟨-, he⟩ := List.cons.inj he
  exact ⟨h1, h2, h3, padZero_inj h4, padZero_inj h5, padZero_inj h6, padZero_inj h7, h8, h9, h10, he⟩

example : Widths "IGS".toList "OPSFIN".toList "01D".toList "15M".toList "ORB".toList 2024 366 23 59 ∧
    lfn "IGS".toList '0' "OPSFIN".toList 2024 366 23 59 "01D".toList "15M".toList "ORB".toList "SP3".toList =
      "IGS0OPSFIN_20243662359_01D_15M_ORB.SP3".toList :=
  ⟨⟨rfl, rfl, rfl, rfl, rfl, by decide, by decide, by decide, by decide⟩, by decide +kernel⟩

theorem ordinal_bounds {y m d : Nat} (h : Valid y m d) : 1 ≤ ordinal y m d ∧ ordinal y m d ≤ 366 := by
  have h1 : Valid y 1 1 := ⟨by decide, by decide, by decide, by show 1 ≤ 31; decide⟩
  have hlast : Valid y 12 31 := ⟨by decide, by decide, by decide, le_refl _⟩
  refine ⟨by unfold ordinal; omega, ?_⟩
  have : dayNumber y m d ≤ dayNumber y 12 31 := by
    by_cases he : m = 12 ∧ d = 31
    · rw [he.1, he.2]
    · have hm := h.m12
      have hd := h.dl
      apply le_of_lt
      apply dayNumber_mono h hlast
      right
      refine ⟨rfl, ?_⟩
      by_cases h12 : m = 12
      · subst h12
        have h31 : d ≤ 31 := hd
        right
        exact ⟨rfl, by omega⟩
      · left; omega
  have hy : dayNumber y 12 31 ≤ dayNumber y 1 1 + 365 := by
    unfold dayNumber
    simp only [daysOfMonths, monthLength]
    by_cases hl : Leap y <;> simp [hl] <;> omega
  unfold ordinal
  omega

/-- C58: within the years of four digits a long orbit name determines the centre, the version, the date, the token and the content. -/
theorem sp3_name_unique {s s' : Str} (hl : s.length = s'.length) {y m d y' m' d' n n' : Nat} {ft ft' : FileType} {v v' : Version}
    (h : Valid y m d) (h' : Valid y' m' d') (hy : y ≤ 9999) (hy' : y' ≤ 9999) (he : sp3Name s y m d ft n v = sp3Name s' y' m' d' ft' n' v') :
    s = s' ∧ v = v' ∧ (y = y' ∧ m = m' ∧ d = d') ∧ sampleToken n = sampleToken n' ∧ ft = ft' := by
  unfold sp3Name at he
  simp only [padInt_nat] at he
  have l4 : ∀ n, n ≤ 9999 → (padLeft '0' 4 (natStr n)).length = 4 := fun n h => padZero_length (by omega)
  have l3 : ∀ n, n ≤ 366 → (padLeft '0' 3 (natStr n)).length = 3 := fun n h => padZero_length (by omega)
  obtain ⟨h1, he⟩ := List.append_inj he hl
  obtain ⟨h2, he⟩ := List.cons.inj he
  have he := List.append_cancel_left he
  obtain ⟨h4, he⟩ := List.append_inj he (by rw [l4 _ hy, l4 _ hy'])
  obtain ⟨h5, he⟩ := List.append_inj he (by rw [l3 _ (ordinal_bounds h).2, l3 _ (ordinal_bounds h').2])
  have he := List.append_cancel_left he
  obtain ⟨h6, h7⟩ := List.append_inj' he (by cases ft <;> cases ft' <;> rfl)
  have hy2 := padZero_inj h4
  subst hy2
  have ho := padZero_inj h5
  have hd : dayNumber y m d = dayNumber y m' d' := by
    have a1 : ∀ {m d : Nat}, Valid y m d → dayNumber y 1 1 ≤ dayNumber y m d := by
      intro m d h
      by_cases hm : m = 1 ∧ d = 1
      · rw [hm.1, hm.2]
      · have h11 : Valid y 1 1 := ⟨by decide, by decide, by decide, by show 1 ≤ 31; decide⟩
        apply le_of_lt
        apply dayNumber_mono h11 h
        have := h.m1
        have := h.d1
        omega
    have := a1 h
    have := a1 h'
    unfold ordinal at ho
    omega
  refine ⟨h1, ?_, dayNumber_injective h h' hd, h6, ?_⟩
  · revert h2
    cases v <;> cases v' <;> decide
  · revert h7
    cases ft <;> cases ft' <;> decide

example : sp3Name "IGS".toList 2024 12 31 .positionOnly 900 .d = "IGSdOPSFIN_20243660000_01D_15M_ORB.SP3".toList := by decide +kernel

end Verif.Naming.Props
