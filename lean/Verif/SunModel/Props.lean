import Verif.SunModel.Model
import Verif.SunModel.Spec
import Verif.Solar.Props
import Verif.Earth.Angles
import Verif.Sky.Horizontal
import Mathlib.Analysis.Real.Pi.Bounds
import Mathlib.Analysis.SpecialFunctions.Trigonometric.Deriv

/-! Properties of the compact Sun: the fast altitude and the daily prediction. -/
namespace Verif.SunModel

open Verif.Solar
open Verif.Earth (remEuclid tau atan2 gmst)
open _root_.Verif.SunModel.Spec (deg sunLongitude sunObliquity sinAltitude diurnal)
open _root_.Verif.Earth.Spec (SameAngle)

theorem rad_deg (d : ℝ) : rad d = deg d := by unfold rad deg; ring

theorem longitude_eq (n : ℝ) : longitude n = sunLongitude n := by
  unfold longitude sunLongitude
  simp only [rad_deg]
  unfold deg
  ring

theorem obliquity_eq (n : ℝ) : obliquity n = sunObliquity n := rad_deg _

theorem cos_same {a b : ℝ} (h : SameAngle a b) : Real.cos a = Real.cos b := by
  obtain ⟨k, rfl⟩ := h
  exact Real.cos_add_int_mul_two_pi b k

theorem rem_cos (x : ℝ) : Real.cos (remEuclid x tau) = Real.cos x := by
  have e : remEuclid x tau = x - ⌊x / tau⌋ * (2 * Real.pi) := rfl
  rw [e, Real.cos_sub_int_mul_two_pi]

theorem rem_sin (x : ℝ) : Real.sin (remEuclid x tau) = Real.sin x := by
  have e : remEuclid x tau = x - ⌊x / tau⌋ * (2 * Real.pi) := rfl
  rw [e, Real.sin_sub_int_mul_two_pi]

/-- The right ascension and declination of the code denote the point of the ecliptic. -/
theorem equatorial (lam eps : ℝ) :
    Real.sqrt (1 - (Real.sin eps * Real.sin lam) * (Real.sin eps * Real.sin lam))
        * Real.cos (atan2 (Real.cos eps * Real.sin lam) (Real.cos lam)) = Real.cos lam ∧
    Real.sqrt (1 - (Real.sin eps * Real.sin lam) * (Real.sin eps * Real.sin lam))
        * Real.sin (atan2 (Real.cos eps * Real.sin lam) (Real.cos lam))
      = Real.cos eps * Real.sin lam := by
  have h := Verif.Sky.Props.atan2_polar (Real.cos eps * Real.sin lam) (Real.cos lam)
  have e : 1 - (Real.sin eps * Real.sin lam) * (Real.sin eps * Real.sin lam)
      = Real.cos lam ^ 2 + (Real.cos eps * Real.sin lam) ^ 2 := by
    linear_combination (-1 : ℝ) * Real.sin_sq_add_cos_sq lam
      - Real.sin lam ^ 2 * Real.sin_sq_add_cos_sq eps
  rw [e]
  exact h

theorem altitude_of (lat theta ra x y sd cd : ℝ) (hx : cd * Real.cos ra = x)
    (hy : cd * Real.sin ra = y) :
    Real.sin lat * sd + Real.cos lat * cd * Real.cos (theta - ra)
      = Real.cos lat * Real.cos theta * x + Real.cos lat * Real.sin theta * y
        + Real.sin lat * sd := by
  rw [Real.cos_sub, ← hx, ← hy]
  ring

/-- C215: the fast model is the sine of the altitude of the Sun at the published ecliptic longitude and
obliquity, for the local sidereal time `4.894961 + 6.300388 n` plus the longitude of the place. -/
theorem fast_is_altitude (s : Site) (t : ℝ) :
    fastSinAlt s t = sinAltitude (4.894961 + 6.300388 * (t - 51544.5) + deg s.lon) (deg s.lat)
      (sunLongitude (t - 51544.5)) (sunObliquity (t - 51544.5)) := by
  unfold fastSinAlt
  simp only [rem_cos, rad_deg, longitude_eq, obliquity_eq, rightAscension, j2000]
  have hs : SameAngle (fastSidereal (t - 51544.5)) (4.894961 + 6.300388 * (t - 51544.5)) :=
    Verif.Earth.Props.remEuclid_same _
  obtain ⟨k, hk⟩ := hs
  have hc : ∀ z : ℝ, Real.cos (fastSidereal (t - 51544.5) + deg s.lon - z)
      = Real.cos (4.894961 + 6.300388 * (t - 51544.5) + deg s.lon - z) := by
    intro z
    rw [← Real.cos_add_int_mul_two_pi (4.894961 + 6.300388 * (t - 51544.5) + deg s.lon - z) k, hk]
    congr 1; ring
  rw [hc]
  have he := equatorial (sunLongitude (t - 51544.5)) (sunObliquity (t - 51544.5))
  rw [altitude_of _ _ _ _ _ _ _ he.1 he.2]
  rfl

/-- The sine of an altitude is between -1 and 1. -/
theorem altitude_bounded (theta lat lam eps : ℝ) : |sinAltitude theta lat lam eps| ≤ 1 := by
  unfold sinAltitude
  set a := Real.cos lat * Real.cos theta
  set b := Real.cos lat * Real.sin theta
  set c := Real.sin lat
  set x := Real.cos lam
  set y := Real.cos eps * Real.sin lam
  set z := Real.sin eps * Real.sin lam
  have h1 : a ^ 2 + b ^ 2 + c ^ 2 = 1 := by
    linear_combination Real.sin_sq_add_cos_sq lat
      + Real.cos lat ^ 2 * Real.sin_sq_add_cos_sq theta
  have h2 : x ^ 2 + y ^ 2 + z ^ 2 = 1 := by
    linear_combination Real.sin_sq_add_cos_sq lam
      + Real.sin lam ^ 2 * Real.sin_sq_add_cos_sq eps
  rw [abs_le]
  constructor
  · nlinarith [sq_nonneg (a + x), sq_nonneg (b + y), sq_nonneg (c + z)]
  · nlinarith [sq_nonneg (a - x), sq_nonneg (b - y), sq_nonneg (c - z)]

/-- C215: the fast model never leaves the range of a sine. -/
theorem fast_bounded (s : Site) (t : ℝ) : |fastSinAlt s t| ≤ 1 := by
  rw [fast_is_altitude]
  exact altitude_bounded _ _ _ _

/-! ### The daily state -/

theorem cos_arcsin_sq (x : ℝ) : Real.cos (Real.arcsin x) = Real.sqrt (1 - x * x) := by
  rw [Real.cos_arcsin, sq]

theorem sinDec_range (lam eps : ℝ) : Real.sin eps * Real.sin lam ∈ Set.Icc (-1 : ℝ) 1 := by
  have h1 := Real.neg_one_le_sin eps
  have h2 := Real.sin_le_one eps
  have h3 := Real.neg_one_le_sin lam
  have h4 := Real.sin_le_one lam
  have h : |Real.sin eps * Real.sin lam| ≤ 1 := by
    rw [abs_mul]
    exact mul_le_one₀ (abs_le.mpr ⟨h1, h2⟩) (abs_nonneg _) (abs_le.mpr ⟨h3, h4⟩)
  exact abs_le.mp h

/-- C215: the state of a day always exists; its transit lies in the day; its declination is that of
the same Sun as in the fast model; and a Sun of this declination that turns once per day and
culminates at the transit stands, in the middle of the day, exactly where the Sun of the day stands
according to the sidereal time of the library. -/
theorem day_state (ut1 : ℝ → ℝ) (s : Site) (precise : ℝ → ℝ) (day : ℝ) :
    ∃ st, dailyState (sky ut1 s precise) day = some st ∧
      day ≤ st.transit ∧ st.transit ≤ day + 1 ∧
      st.sinDec = Real.sin (sunObliquity (day + 0.5 - 51544.5))
        * Real.sin (sunLongitude (day + 0.5 - 51544.5)) ∧
      0 ≤ st.cosDec ∧ st.sinDec ^ 2 + st.cosDec ^ 2 = 1 ∧
      diurnal (deg s.lat) st.sinDec st.cosDec st.transit (day + 0.5)
        = sinAltitude (gmst (ut1 (day + 2400001)) (day + 2400001) + deg s.lon) (deg s.lat)
            (sunLongitude (day + 0.5 - 51544.5)) (sunObliquity (day + 0.5 - 51544.5)) := by
  have hm : (day + (day + 1)) / 2 = day + 0.5 := by ring
  have hj : day + 0.5 + 2400000.5 = day + 2400001 := by ring
  set n := day + 0.5 - 51544.5 with hn
  obtain ⟨e, he⟩ : ∃ e, ephem ut1 s (day + 0.5) = some e := ⟨_, rfl⟩
  have he' := he
  unfold ephem at he'
  simp only [rad_deg, longitude_eq, obliquity_eq, rightAscension, j2000, gmstDefault, hj, ← hn,
    Option.some.injEq] at he'
  have hr := sinDec_range (sunLongitude n) (sunObliquity n)
  have htau : (0 : ℝ) < tau := by unfold tau; positivity
  have hsd : e.sinDec = Real.sin (sunObliquity n) * Real.sin (sunLongitude n) := by
    rw [← he']
    exact Real.sin_arcsin hr.1 hr.2
  have hcd : e.cosDec = Real.sqrt (1 - (Real.sin (sunObliquity n) * Real.sin (sunLongitude n))
      * (Real.sin (sunObliquity n) * Real.sin (sunLongitude n))) := by
    rw [← he']
    exact cos_arcsin_sq _
  have hha : 0 ≤ e.hourAngle ∧ e.hourAngle < 1 := by
    rw [← he']
    dsimp only
    have h := Verif.Earth.Props.remEuclid_range (x := remEuclid (gmst (ut1 (day + 2400001)) (day + 2400001)
      + deg s.lon) tau - atan2 (Real.cos (sunObliquity n) * Real.sin (sunLongitude n))
        (Real.cos (sunLongitude n))) htau
    exact ⟨div_nonneg h.1 htau.le, (div_lt_one htau).mpr h.2⟩
  have ht := Verif.Solar.Props.transit_in_day day e hha.1 hha.2
  refine ⟨⟨e.sinDec, e.cosDec, transitOf day e⟩, ?_, ht.1, ht.2.1, hsd, ?_, ?_, ?_⟩
  · unfold dailyState
    rw [hm]
    change (ephem ut1 s (day + 0.5)).map _ = _
    rw [he]
    rfl
  · dsimp only
    rw [hcd]
    exact Real.sqrt_nonneg _
  · dsimp only
    rw [hsd, hcd, Real.sq_sqrt]
    · ring
    · nlinarith [hr.1, hr.2]
  · obtain ⟨k, hk⟩ := ht.2.2
    dsimp only
    unfold diurnal
    have h1 : 2 * Real.pi * (day + 0.5 - transitOf day e)
        = e.hourAngle * tau - k * (2 * Real.pi) := by
      rw [hk]; unfold tau; ring
    have h2 : e.hourAngle * tau = remEuclid (remEuclid (gmst (ut1 (day + 2400001)) (day + 2400001)
      + deg s.lon) tau - atan2 (Real.cos (sunObliquity n) * Real.sin (sunLongitude n))
        (Real.cos (sunLongitude n))) tau := by
      rw [← he']
      exact div_mul_cancel₀ _ htau.ne'
    rw [h1, Real.cos_sub_int_mul_two_pi, h2, rem_cos, Real.cos_sub, rem_cos, rem_sin,
      ← Real.cos_sub, hsd, hcd]
    have hq := equatorial (sunLongitude n) (sunObliquity n)
    rw [altitude_of _ _ _ _ _ _ _ hq.1 hq.2]
    rfl

/-! ### The prediction -/

/-- C216: when the predictor calls the day one without crossings, the Sun of the daily state indeed
stays on that side of the threshold at every instant. -/
theorem quiet_day (ut1 : ℝ → ℝ) (s : Site) (precise : ℝ → ℝ) (st : DayState ℝ) (thr : ℝ)
    (hlat : |s.lat| ≤ 90) (hc : 0 ≤ st.cosDec) :
    (dayCase (sky ut1 s precise) st thr = .alwaysBelow →
      ∀ t, diurnal (deg s.lat) st.sinDec st.cosDec st.transit t < thr) ∧
    (dayCase (sky ut1 s precise) st thr = .alwaysAbove →
      ∀ t, thr < diurnal (deg s.lat) st.sinDec st.cosDec st.transit t) := by
  have hl : 0 ≤ Real.cos (deg s.lat) := by
    rw [abs_le] at hlat
    apply Real.cos_nonneg_of_neg_pi_div_two_le_of_le <;> unfold deg <;> nlinarith [Real.pi_pos]
  have hd0 : 0 ≤ Real.cos (deg s.lat) * st.cosDec := mul_nonneg hl hc
  unfold dayCase diurnal
  simp only [sky, rad_deg, grazeEps]
  by_cases hz : |Real.cos (deg s.lat) * st.cosDec| < 1 / 10 ^ 12
  · rw [if_pos hz]
    exact ⟨fun h => (by cases h), fun h => (by cases h)⟩
  · rw [if_neg hz]
    have hd : 0 < Real.cos (deg s.lat) * st.cosDec := by
      rw [abs_of_nonneg hd0, not_lt] at hz
      exact lt_of_lt_of_le (by norm_num) hz
    by_cases h1 : 1 + 1 / 10 ^ 3 < (thr - Real.sin (deg s.lat) * st.sinDec)
        / (Real.cos (deg s.lat) * st.cosDec)
    · rw [if_pos h1]
      refine ⟨fun _ t => ?_, fun h => (by cases h)⟩
      rw [lt_div_iff₀ hd] at h1
      nlinarith [Real.cos_le_one (2 * Real.pi * (t - st.transit))]
    · rw [if_neg h1]
      by_cases h2 : (thr - Real.sin (deg s.lat) * st.sinDec)
          / (Real.cos (deg s.lat) * st.cosDec) < -1 - 1 / 10 ^ 3
      · rw [if_pos h2]
        refine ⟨fun h => (by cases h), fun _ t => ?_⟩
        rw [div_lt_iff₀ hd] at h2
        nlinarith [Real.neg_one_le_cos (2 * Real.pi * (t - st.transit))]
      · rw [if_neg h2]
        split
        · exact ⟨fun h => (by cases h), fun h => (by cases h)⟩
        · exact ⟨fun h => (by cases h), fun h => (by cases h)⟩

theorem turn_cos {h t : ℝ} (ht : |t| ≤ 1 / 2) (h0 : 0 ≤ h) (h1 : h ≤ 1 / 2) :
    Real.cos (2 * Real.pi * h) < Real.cos (2 * Real.pi * t) ↔ |t| < h := by
  have hp := Real.pi_pos
  rw [← Real.cos_abs (2 * Real.pi * t), abs_mul, abs_of_pos (by positivity : 0 < 2 * Real.pi)]
  have h2 := Real.strictAntiOn_cos.lt_iff_gt (a := 2 * Real.pi * h) (b := 2 * Real.pi * |t|)
    ⟨by positivity, by nlinarith⟩ ⟨by positivity, by nlinarith [abs_nonneg t]⟩
  rw [h2]
  exact mul_lt_mul_iff_right₀ (by positivity)

/-- C216: on a day with crossings the two candidates, rising first and setting second, lie within half
a day on either side of the transit; the Sun of the daily state is exactly at the threshold there and
moves with exactly the announced slope, upwards at the first and downwards at the second; and within
half a day of the transit it is above the threshold exactly between them. -/
theorem prediction_exact (ut1 : ℝ → ℝ) (s : Site) (precise : ℝ → ℝ) (st : DayState ℝ)
    (thr cosH0 : ℝ) (hlat : |s.lat| ≤ 90) (hc : 0 ≤ st.cosDec)
    (h : dayCase (sky ut1 s precise) st thr = .crossings cosH0) :
    ∃ rise set, candidates (sky ut1 s precise) st cosH0 = [rise, set] ∧
      rise.direction = 1 ∧ set.direction = -1 ∧
      st.transit - 1 / 2 < rise.predicted ∧ rise.predicted < st.transit ∧
      st.transit < set.predicted ∧ set.predicted < st.transit + 1 / 2 ∧
      0 < rise.slope ∧ set.slope < 0 ∧
      HasDerivAt (diurnal (deg s.lat) st.sinDec st.cosDec st.transit) rise.slope rise.predicted ∧
      HasDerivAt (diurnal (deg s.lat) st.sinDec st.cosDec st.transit) set.slope set.predicted ∧
      diurnal (deg s.lat) st.sinDec st.cosDec st.transit rise.predicted = thr ∧
      diurnal (deg s.lat) st.sinDec st.cosDec st.transit set.predicted = thr ∧
      ∀ t, |t - st.transit| ≤ 1 / 2 →
        (thr < diurnal (deg s.lat) st.sinDec st.cosDec st.transit t ↔
          rise.predicted < t ∧ t < set.predicted) := by
  have hl : 0 ≤ Real.cos (deg s.lat) := by
    rw [abs_le] at hlat
    apply Real.cos_nonneg_of_neg_pi_div_two_le_of_le <;> unfold deg <;> nlinarith [Real.pi_pos]
  have hd0 : 0 ≤ Real.cos (deg s.lat) * st.cosDec := mul_nonneg hl hc
  unfold dayCase at h
  simp only [sky, rad_deg, grazeEps] at h
  by_cases hz : |Real.cos (deg s.lat) * st.cosDec| < 1 / 10 ^ 12
  · rw [if_pos hz] at h; cases h
  rw [if_neg hz] at h
  have hd : 0 < Real.cos (deg s.lat) * st.cosDec := by
    rw [abs_of_nonneg hd0, not_lt] at hz
    exact lt_of_lt_of_le (by norm_num) hz
  set d := Real.cos (deg s.lat) * st.cosDec with hdd
  set c := (thr - Real.sin (deg s.lat) * st.sinDec) / d with hcc
  have hthr : thr = Real.sin (deg s.lat) * st.sinDec + d * c := by
    rw [hcc, mul_div_cancel₀ _ hd.ne']; ring
  split at h
  · cases h
  split at h
  · cases h
  split at h
  · cases h
  rename_i h3
  have hcH : c = cosH0 := by injection h
  push Not at h3
  obtain ⟨h4, h5, h6⟩ := h3
  have hc1 : -1 < c := by
    rcases lt_or_eq_of_le h4.1 with h | h
    · exact h
    · exfalso; rw [← h] at h5; norm_num at h5
  have hc2 : c < 1 := by
    rcases lt_or_eq_of_le h4.2 with h | h
    · exact h
    · exfalso; rw [h] at h6; norm_num at h6
  have hp := Real.pi_pos
  have htau : (0 : ℝ) < tau := by unfold tau; positivity
  set a := Real.arccos c / tau with ha
  have ha2 : 2 * Real.pi * a = Real.arccos c := by
    rw [ha]; unfold tau; field_simp
  have ha0 : 0 < a := div_pos (Real.arccos_pos.mpr hc2) htau
  have ha1 : a < 1 / 2 := by
    have : Real.arccos c < Real.pi := by
      have h7 := Real.arccos_lt_arccos (le_refl (-1 : ℝ)) hc1 hc2.le
      rwa [Real.arccos_neg_one] at h7
    nlinarith
  have hcos : Real.cos (2 * Real.pi * a) = c := by
    rw [ha2]; exact Real.cos_arccos hc1.le hc2.le
  have hsin : 0 < Real.sin (2 * Real.pi * a) := by
    apply Real.sin_pos_of_pos_of_lt_pi <;> nlinarith
  have hder : ∀ t, HasDerivAt (diurnal (deg s.lat) st.sinDec st.cosDec st.transit)
      (-(d * Real.sin (2 * Real.pi * (t - st.transit)) * tau)) t := by
    intro t
    unfold diurnal
    have h1 : HasDerivAt (fun x : ℝ => 2 * Real.pi * (x - st.transit)) (2 * Real.pi * 1) t :=
      ((hasDerivAt_id t).sub_const st.transit).const_mul (2 * Real.pi)
    have h2 := ((h1.cos).const_mul (Real.cos (deg s.lat) * st.cosDec)).const_add
      (Real.sin (deg s.lat) * st.sinDec)
    refine h2.congr_deriv ?_
    rw [hdd]; unfold tau; ring
  subst hcH
  refine ⟨⟨st.transit + -a, 1, d * (Real.sin (Real.arccos c) * tau)⟩,
    ⟨st.transit + a, -1, -(d * (Real.sin (Real.arccos c) * tau))⟩, ?_, rfl, rfl, ?_, ?_, ?_, ?_,
    ?_, ?_, ?_, ?_, ?_, ?_, ?_⟩
  · unfold candidates
    simp only [sky, rad_deg]
    rfl
  · dsimp only; linarith
  · dsimp only; linarith
  · dsimp only; linarith
  · dsimp only; linarith
  · dsimp only
    rw [← ha2]; positivity
  · dsimp only
    rw [← ha2]
    have : 0 < d * (Real.sin (2 * Real.pi * a) * tau) := by positivity
    linarith
  · have h1 := hder (st.transit + -a)
    dsimp only
    rw [← ha2]
    refine h1.congr_deriv ?_
    rw [show 2 * Real.pi * (st.transit + -a - st.transit) = -(2 * Real.pi * a) by ring,
      Real.sin_neg]
    ring
  · have h1 := hder (st.transit + a)
    dsimp only
    rw [← ha2]
    refine h1.congr_deriv ?_
    rw [show 2 * Real.pi * (st.transit + a - st.transit) = 2 * Real.pi * a by ring]
    ring
  · unfold diurnal
    dsimp only
    rw [show 2 * Real.pi * (st.transit + -a - st.transit) = -(2 * Real.pi * a) by ring,
      Real.cos_neg, hcos, ← hdd, ← hthr]
  · unfold diurnal
    dsimp only
    rw [show 2 * Real.pi * (st.transit + a - st.transit) = 2 * Real.pi * a by ring,
      hcos, ← hdd, ← hthr]
  · intro t ht
    have hk := turn_cos ht ha0.le ha1.le
    rw [hcos, abs_lt] at hk
    unfold diurnal
    dsimp only
    rw [← hdd]
    constructor
    · intro hlt
      rw [hthr] at hlt
      have h8 : c < Real.cos (2 * Real.pi * (t - st.transit)) := by
        by_contra hcon
        push Not at hcon
        nlinarith
      have := hk.mp h8
      constructor <;> linarith [this.1, this.2]
    · intro hb
      have h8 := hk.mpr ⟨by linarith [hb.1], by linarith [hb.2]⟩
      rw [hthr]
      nlinarith

/-- Half the zenith sine at the equator at an equinox: the hour angle is 60 degrees. -/
example (ut1 : ℝ → ℝ) (precise : ℝ → ℝ) :
    dayCase (sky ut1 ⟨0, 0⟩ precise) ⟨0, 1, 60000.5⟩ (1 / 2) = .crossings (1 / 2) := by
  unfold dayCase
  norm_num [sky, rad, grazeEps, abs_of_pos, abs_of_neg]

/-! ### The clock of the fast model -/

/-- The clock of the fast model against the sidereal time of the library. Between 3650 and 18262 days
after J2000 (2010 to 2049), with ΔT = TT − UT1 between 60 and 80 seconds, the fast model, which feeds
TT into a formula for UT1, is ahead by more than 8 arcminutes. -/
theorem fast_clock (n ut1 : ℝ) (h0 : 3650 ≤ n) (h1 : n ≤ 18262)
    (hd0 : 60 / 86400 ≤ 2451545 + n - ut1) (hd1 : 2451545 + n - ut1 ≤ 80 / 86400) :
    ∃ D, deg (8 / 60) < D ∧ D < deg 1 ∧
      SameAngle (4.894961 + 6.300388 * n) (gmst ut1 (2451545 + n) + D) := by
  obtain ⟨k, hk⟩ := (Verif.Earth.Props.mean_sidereal_time ut1 (2451545 + n)).2
  have e : (2451545 + n - 2451545) / 36525 = n / 36525 := by ring
  rw [e] at hk
  unfold _root_.Verif.Earth.Spec.earthRotation at hk
  set x := n / 36525 with hx
  have hx0 : 0 ≤ x := by rw [hx]; positivity
  have hx1 : x ≤ 1 / 2 := by rw [hx, div_le_iff₀ (by norm_num)]; linarith
  have hnx : n = 36525 * x := by rw [hx]; field_simp
  have p1 := Real.pi_gt_d20
  have p2 := Real.pi_lt_d20
  have q2 : x ^ 2 ≤ 1 / 4 := by nlinarith
  have q2' : 0 ≤ x ^ 2 := by positivity
  have q3 : 0 ≤ x ^ 3 := by positivity
  have q3' : x ^ 3 ≤ 1 := pow_le_one₀ hx0 (by linarith)
  have q4 : 0 ≤ x ^ 4 := by positivity
  have q4' : x ^ 4 ≤ 1 := pow_le_one₀ hx0 (by linarith)
  have q5 : 0 ≤ x ^ 5 := by positivity
  have q5' : x ^ 5 ≤ 1 := pow_le_one₀ hx0 (by linarith)
  set r := 1.3915817 * x ^ 2 - 0.00000044 * x ^ 3 - 0.000029956 * x ^ 4 - 0.0000000368 * x ^ 5
    with hr
  have r0 : -1 ≤ r := by rw [hr]; linarith
  have r1 : r ≤ 1 := by rw [hr]; linarith
  obtain ⟨y, hy⟩ : ∃ y, y = 2451545 + n - ut1 := ⟨_, rfl⟩
  rw [← hy] at hd0 hd1
  have hu : ut1 = 2451545 + n - y := by rw [hy]; ring
  subst hu
  have hyp0 : 60 / 86400 * (2 * Real.pi * 1.00273781191135448)
      ≤ y * (2 * Real.pi * 1.00273781191135448) :=
    mul_le_mul_of_nonneg_right hd0 (by positivity)
  have hyp1 : y * (2 * Real.pi * 1.00273781191135448)
      ≤ 80 / 86400 * (2 * Real.pi * 1.00273781191135448) :=
    mul_le_mul_of_nonneg_right hd1 (by positivity)
  have hnp0 : 3.14159265358979323846 * x ≤ Real.pi * x := mul_le_mul_of_nonneg_right p1.le hx0
  have hnp1 : Real.pi * x ≤ 3.14159265358979323847 * x := mul_le_mul_of_nonneg_right p2.le hx0
  have hrp0 : -1 * (Real.pi / 648000) ≤ r * (Real.pi / 648000) :=
    mul_le_mul_of_nonneg_right r0 (by positivity)
  have hrp1 : r * (Real.pi / 648000) ≤ 1 * (Real.pi / 648000) :=
    mul_le_mul_of_nonneg_right r1 (by positivity)
  refine ⟨4.894961 + 6.300388 * n - (2 * Real.pi * (0.7790572732640
    + 1.00273781191135448 * (n - y)) + (0.014506 + 4612.156534 * x + r) * (Real.pi / 648000)),
    ?_, ?_, -k, ?_⟩
  · unfold deg
    rw [hnx]
    linarith
  · unfold deg
    rw [hnx]
    linarith
  · rw [hk, hr]
    push_cast
    ring

theorem declination_near (n : ℝ) (h0 : 3650 ≤ n) (h1 : n ≤ 18262) :
    (9 : ℝ) / 10 ≤ Real.sqrt (1 - (Real.sin (sunObliquity n) * Real.sin (sunLongitude n))
      * (Real.sin (sunObliquity n) * Real.sin (sunLongitude n))) := by
  have p1 := Real.pi_gt_d6
  have p2 := Real.pi_lt_d6
  have hb : 0 ≤ sunObliquity n ∧ sunObliquity n ≤ 0.41 := by
    unfold sunObliquity deg
    constructor <;> nlinarith
  have hs0 : 0 ≤ Real.sin (sunObliquity n) :=
    Real.sin_nonneg_of_nonneg_of_le_pi hb.1 (by linarith [hb.2])
  have hs1 : Real.sin (sunObliquity n) ≤ 0.41 := (Real.sin_le hb.1).trans hb.2
  apply Real.le_sqrt_of_sq_le
  have h2 : Real.sin (sunLongitude n) ^ 2 ≤ 1 := Real.sin_sq_le_one _
  have h3 : 0 ≤ Real.sin (sunLongitude n) ^ 2 := sq_nonneg _
  have h4 : Real.sin (sunObliquity n) ^ 2 ≤ 0.41 ^ 2 := pow_le_pow_left₀ hs0 hs1 2
  have h5 : Real.sin (sunObliquity n) ^ 2 * Real.sin (sunLongitude n) ^ 2 ≤ 0.41 ^ 2 * 1 :=
    mul_le_mul h4 h2 h3 (by norm_num)
  nlinarith

/-- C215, finding: the fast model is documented as "accurate to ~1 arcminute in altitude". At every
instant between 2010 and 2049, with ΔT between 60 and 80 seconds, there is a place on the equator where
it is more than 5 arcminutes away from the altitude of the very same Sun for the sidereal time that the
library itself computes. -/
theorem fast_not_one_arcminute (t ut1 : ℝ) (h0 : 3650 ≤ t - 51544.5) (h1 : t - 51544.5 ≤ 18262)
    (hd0 : 60 / 86400 ≤ t + 2400000.5 - ut1) (hd1 : t + 2400000.5 - ut1 ≤ 80 / 86400) :
    ∃ lon, deg (5 / 60) < Real.arcsin (sinAltitude (gmst ut1 (t + 2400000.5) + deg lon) (deg 0)
        (sunLongitude (t - 51544.5)) (sunObliquity (t - 51544.5)))
      - Real.arcsin (fastSinAlt ⟨0, lon⟩ t) := by
  set n := t - 51544.5 with hn
  have ht : t + 2400000.5 = 2451545 + n := by rw [hn]; ring
  rw [ht] at hd0 hd1 ⊢
  obtain ⟨D, hD0, hD1, k, hk⟩ := fast_clock n ut1 h0 h1 hd0 hd1
  set ra := atan2 (Real.cos (sunObliquity n) * Real.sin (sunLongitude n))
    (Real.cos (sunLongitude n)) with hra
  have hdeg : ∀ z : ℝ, deg (z * 180 / Real.pi) = z := by
    intro z
    unfold deg
    have := Real.pi_ne_zero
    field_simp
  have he := equatorial (sunLongitude n) (sunObliquity n)
  rw [← hra] at he
  have hc := declination_near n h0 h1
  set cd := Real.sqrt (1 - (Real.sin (sunObliquity n) * Real.sin (sunLongitude n))
      * (Real.sin (sunObliquity n) * Real.sin (sunLongitude n))) with hcd
  have key : ∀ theta, sinAltitude theta (deg 0) (sunLongitude n) (sunObliquity n)
      = cd * Real.cos (theta - ra) := by
    intro theta
    have h := altitude_of (deg 0) theta ra _ _ (Real.sin (sunObliquity n)
      * Real.sin (sunLongitude n)) cd he.1 he.2
    unfold sinAltitude
    rw [← h]
    simp [deg]
  refine ⟨(Real.pi / 2 + ra - (4.894961 + 6.300388 * n)) * 180 / Real.pi, ?_⟩
  rw [fast_is_altitude]
  dsimp only
  rw [← hn, key, key, hdeg]
  have e1 : 4.894961 + 6.300388 * n + (Real.pi / 2 + ra - (4.894961 + 6.300388 * n)) - ra
      = Real.pi / 2 := by ring
  have e2 : gmst ut1 (2451545 + n) + (Real.pi / 2 + ra - (4.894961 + 6.300388 * n)) - ra
      = Real.pi / 2 - D - k * (2 * Real.pi) := by
    rw [hk]; ring
  rw [e1, e2, Real.cos_pi_div_two, mul_zero, Real.arcsin_zero, sub_zero,
    Real.cos_sub_int_mul_two_pi, Real.cos_pi_div_two_sub]
  have p1 := Real.pi_gt_d6
  have p2 := Real.pi_lt_d6
  have hDp : 0.0023 < D := by
    have h : (0.0023 : ℝ) < deg (8 / 60) := by unfold deg; linarith
    linarith
  have hDq : D < 0.02 := lt_of_lt_of_le hD1 (by unfold deg; linarith)
  have hsin : 0.0022 < Real.sin D := by
    have h := Real.sin_gt_sub_cube (x := D) (by linarith)
    nlinarith [mul_pos (show (0:ℝ) < D by linarith) (show (0:ℝ) < D by linarith)]
  have hv : (0.0019 : ℝ) < cd * Real.sin D := by nlinarith
  have hcd1 : cd ≤ 1 := by
    rw [hcd]
    apply Real.sqrt_le_one.mpr
    nlinarith [mul_self_nonneg (Real.sin (sunObliquity n) * Real.sin (sunLongitude n))]
  have hv1 : cd * Real.sin D ≤ 1 := mul_le_one₀ hcd1 (by linarith) (Real.sin_le_one D)
  have h5 : deg (5 / 60) < 0.0019 := by unfold deg; linarith
  have h6 : Real.sin 0.0019 ≤ 0.0019 := Real.sin_le (by norm_num)
  have h7 : (0.0019 : ℝ) < Real.arcsin (cd * Real.sin D) := by
    rw [Real.lt_arcsin_iff_sin_lt ⟨by linarith, by linarith⟩ ⟨by linarith, hv1⟩]
    linarith
  linarith

/-- Noon of 2026 January 1 with ΔT = 69.2 s meets the hypotheses. -/
example : (3650 : ℝ) ≤ 61041.5 - 51544.5 ∧ (61041.5 : ℝ) - 51544.5 ≤ 18262 ∧
    (60 : ℝ) / 86400 ≤ 61041.5 + 2400000.5 - (61041.5 + 2400000.5 - 69.2 / 86400) := by norm_num

end Verif.SunModel
