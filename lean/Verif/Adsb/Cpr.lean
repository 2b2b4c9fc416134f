import Verif.Adsb.CprSpec
import Mathlib.Tactic.Linarith
import Mathlib.Tactic.FieldSimp
import Mathlib.Analysis.Real.Pi.Bounds

namespace Verif.Adsb
open Spec

theorem dlat_eq (odd : Bool) : dlat odd = Dlat odd := by
  unfold dlat Dlat NZ parity
  cases odd <;> norm_num

theorem Dlat_pos (odd : Bool) : 0 < Dlat odd := by
  unfold Dlat parity; cases odd <;> norm_num

theorem Dlat_le (odd : Bool) : Dlat odd ≤ 360 / 59 := by
  unfold Dlat parity; cases odd <;> norm_num

/-- The rounded position in units of `D / 2^17`. -/
noncomputable def rnd (D x : ℝ) : ℤ := ⌊2 ^ 17 * (x / D) + 1 / 2⌋

theorem Z_eq (D x : ℝ) (hD : 0 < D) : Z D x = rnd D x - 2 ^ 17 * ⌊x / D⌋ := by
  unfold Z rnd MOD
  have : 2 ^ 17 * (x - D * (⌊x / D⌋ : ℤ)) / D + 1 / 2 =
      2 ^ 17 * (x / D) + 1 / 2 - ((2 ^ 17 * ⌊x / D⌋ : ℤ) : ℝ) := by
    push_cast; field_simp
    ring
  rw [this, Int.floor_sub_intCast]

theorem R_eq (D x : ℝ) (hD : 0 < D) : R D x = D * ((rnd D x : ℝ) / 2 ^ 17) := by
  unfold R
  rw [Z_eq D x hD]
  push_cast; field_simp
  ring

theorem tx_eq (D x : ℝ) (hD : 0 < D) : (tx D x : ℤ) = rnd D x % 2 ^ 17 := by
  unfold tx
  rw [Z_eq D x hD, Int.toNat_of_nonneg (Int.emod_nonneg _ (by norm_num)), Int.sub_mul_emod_self_left]

theorem tx_lt (D x : ℝ) (hD : 0 < D) : tx D x < 2 ^ 17 := by
  have h := tx_eq D x hD
  have := Int.emod_lt_of_pos (rnd D x) (show (0 : ℤ) < 2 ^ 17 by norm_num)
  rw [← h] at this
  exact_mod_cast this

/-- Zone number and 17-bit fraction of the rounded position. -/
theorem R_split (D x : ℝ) (hD : 0 < D) :
    R D x = D * (((rnd D x / 2 ^ 17 : ℤ) : ℝ) + (tx D x : ℝ) / 131072) := by
  rw [R_eq D x hD]
  have h : ((tx D x : ℤ) : ℝ) = ((rnd D x % 2 ^ 17 : ℤ) : ℝ) := by rw [tx_eq D x hD]
  have h2 : ((2 ^ 17 * (rnd D x / 2 ^ 17) + rnd D x % 2 ^ 17 : ℤ) : ℝ) = rnd D x := by
    rw [Int.mul_ediv_add_emod]
  push_cast at h h2 ⊢
  rw [h, ← h2]
  field_simp
  norm_num
  ring

theorem R_close (D x : ℝ) (hD : 0 < D) : |R D x - x| ≤ D / 2 ^ 18 := by
  rw [R_eq D x hD]
  have h1 := Int.floor_le (2 ^ 17 * (x / D) + 1 / 2)
  have h2 := Int.lt_floor_add_one (2 ^ 17 * (x / D) + 1 / 2)
  change (rnd D x : ℝ) ≤ _ at h1
  change _ < (rnd D x : ℝ) + 1 at h2
  have e : D * ((rnd D x : ℝ) / 2 ^ 17) - x = D / 2 ^ 17 * ((rnd D x : ℝ) - 2 ^ 17 * (x / D)) := by
    field_simp
  have h3 : |(rnd D x : ℝ) - 2 ^ 17 * (x / D)| ≤ 1 / 2 := by
    rw [abs_le]; constructor <;> linarith
  rw [e, abs_mul, abs_of_pos (by positivity)]
  calc D / 2 ^ 17 * |(rnd D x : ℝ) - 2 ^ 17 * (x / D)| ≤ D / 2 ^ 17 * (1 / 2) := by gcongr
    _ = D / 2 ^ 18 := by ring

/-! ### Zone count -/

theorem numer_pos : 0 < 1 - Real.cos (Real.pi / (2 * 15)) := by
  have : Real.cos (Real.pi / (2 * 15)) < Real.cos 0 := by
    apply Real.cos_lt_cos_of_nonneg_of_le_pi
    · exact le_refl _
    · have := Real.pi_pos; linarith
    · have := Real.pi_pos; positivity
  rw [Real.cos_zero] at this; linarith

/-- `sin(3°)²` bound: for `|lat| < 87` the cosine squared exceeds half of the numerator. -/
theorem cos_sq_gt {lat : ℝ} (h : |lat| < 87) :
    (1 - Real.cos (Real.pi / (2 * 15))) / 2 < Real.cos (lat * (Real.pi / 180)) ^ 2 := by
  have hp := Real.pi_pos
  have e1 : (1 - Real.cos (Real.pi / (2 * 15))) / 2 = Real.cos (87 * (Real.pi / 180)) ^ 2 := by
    rw [Real.cos_sq]
    have : 2 * (87 * (Real.pi / 180)) = Real.pi - Real.pi / (2 * 15) := by ring
    rw [this, Real.cos_pi_sub]; ring
  rw [e1]
  have hc : Real.cos (87 * (Real.pi / 180)) < Real.cos (|lat| * (Real.pi / 180)) := by
    apply Real.cos_lt_cos_of_nonneg_of_le_pi
    · positivity
    · linarith
    · apply mul_lt_mul_of_pos_right h; positivity
  have h0 : 0 ≤ Real.cos (87 * (Real.pi / 180)) := by
    apply Real.cos_nonneg_of_neg_pi_div_two_le_of_le <;> linarith
  have e2 : Real.cos (|lat| * (Real.pi / 180)) = Real.cos (lat * (Real.pi / 180)) := by
    rcases abs_choice lat with h | h <;> rw [h]
    rw [neg_mul, Real.cos_neg]
  rw [← e2]
  exact pow_lt_pow_left₀ hc h0 (by norm_num)

/-- The argument of `acos` (cpr.rs:51) is inside `[-1, 1]`: no NaN from it. -/
theorem nl_arg_range {lat : ℝ} (h : |lat| < 87) :
    -1 < 1 - (1 - Real.cos (Real.pi / (2 * NZ))) / (Real.cos (lat * (Real.pi / 180)) * Real.cos (lat * (Real.pi / 180)))
    ∧ 1 - (1 - Real.cos (Real.pi / (2 * NZ))) / (Real.cos (lat * (Real.pi / 180)) * Real.cos (lat * (Real.pi / 180))) < 1 := by
  have hn := numer_pos
  have hc := cos_sq_gt h
  unfold NZ
  rw [sq] at hc
  have hpos : 0 < Real.cos (lat * (Real.pi / 180)) * Real.cos (lat * (Real.pi / 180)) := by linarith
  constructor
  · rw [lt_sub_iff_add_lt, ← lt_sub_iff_add_lt', div_lt_iff₀ hpos]; linarith
  · have := div_pos hn hpos; linarith

theorem clamp_int (n : ℤ) : ∃ m : ℤ, clamp (n : ℝ) 1 59 = m ∧ 1 ≤ m ∧ m ≤ 59 := by
  unfold clamp
  split
  · exact ⟨1, by norm_num, by norm_num, by norm_num⟩
  · rename_i h1
    split
    · exact ⟨59, by norm_num, by norm_num, by norm_num⟩
    · rename_i h2
      refine ⟨n, rfl, ?_, ?_⟩
      · push Not at h1; exact_mod_cast h1
      · push Not at h2; exact_mod_cast h2

/-- The computed zone count is a whole number between 1 and 59 for every latitude. -/
theorem nl_int (lat : ℝ) : ∃ n : ℤ, nl lat = n ∧ 1 ≤ n ∧ n ≤ 59 := by
  unfold nl
  split
  · exact ⟨1, by norm_num, by norm_num, by norm_num⟩
  · exact clamp_int _

/-- Off the single pair of latitudes ±87, the code's zone count is the standard's. -/
theorem nl_eq_NL {lat : ℝ} (h : |lat| ≠ 87) : nl lat = (NL lat : ℝ) := by
  unfold nl NL
  rcases lt_or_gt_of_ne h with hlt | hgt
  · rw [if_neg (by linarith), if_neg (by linarith), if_neg h]
    have hp := Real.pi_pos
    have hn := numer_pos
    obtain ⟨ha, hb⟩ := nl_arg_range hlt
    have hc := cos_sq_gt hlt
    unfold NZ at ha hb ⊢
    simp only
    have e2 : Real.cos (Real.pi / 180 * |lat|) = Real.cos (lat * (Real.pi / 180)) := by
      rw [mul_comm]
      rcases abs_choice lat with h | h <;> rw [h]
      rw [neg_mul, Real.cos_neg]
    rw [e2, sq]
    split
    · rename_i h0
      subst h0
      rw [zero_mul, Real.cos_zero, mul_one, div_one, sub_sub_cancel, Real.arccos_cos (by positivity) (by linarith)]
      have : 2 * Real.pi / (Real.pi / (2 * 15)) = ((60 : ℤ) : ℝ) := by field_simp; norm_num
      rw [this, Int.floor_intCast]
      unfold clamp; norm_num
    · rename_i h0
      set c := Real.cos (lat * (Real.pi / 180)) with hcdef
      have hc1 : c * c < 1 := by
        have habs : 0 < |lat| := abs_pos.mpr h0
        have e3 : c = Real.cos (|lat| * (Real.pi / 180)) := by rw [← e2, mul_comm]
        have : Real.cos (|lat| * (Real.pi / 180)) < Real.cos 0 := by
          apply Real.cos_lt_cos_of_nonneg_of_le_pi (le_refl _)
          · have : |lat| * (Real.pi / 180) ≤ 87 * (Real.pi / 180) := by gcongr
            linarith
          · positivity
        rw [Real.cos_zero, ← e3] at this
        have hpos : 0 ≤ c := by
          rw [e3]
          apply Real.cos_nonneg_of_neg_pi_div_two_le_of_le
          · have : 0 ≤ |lat| * (Real.pi / 180) := by positivity
            linarith
          · have : |lat| * (Real.pi / 180) ≤ 87 * (Real.pi / 180) := by gcongr
            linarith
        nlinarith
      have hcp : 0 < c * c := by rw [sq] at hc; linarith
      set A := 1 - (1 - Real.cos (Real.pi / (2 * 15))) / (c * c) with hA
      have hA1 : A < Real.cos (Real.pi / (2 * 15)) := by
        have : 1 - Real.cos (Real.pi / (2 * 15)) < (1 - Real.cos (Real.pi / (2 * 15))) / (c * c) := by
          rw [lt_div_iff₀ hcp]
          calc (1 - Real.cos (Real.pi / (2 * 15))) * (c * c) < (1 - Real.cos (Real.pi / (2 * 15))) * 1 := by
                apply mul_lt_mul_of_pos_left hc1 hn
            _ = _ := mul_one _
        linarith
      have harc : Real.pi / (2 * 15) < Real.arccos A := by
        rw [← Real.arccos_cos (x := Real.pi / (2 * 15)) (by positivity) (by linarith)]
        exact Real.arccos_lt_arccos ha.le hA1 (Real.cos_le_one _)
      have harc2 := Real.arccos_le_pi A
      have hpos : 0 < Real.arccos A := lt_trans (by positivity) harc
      have f1 : (2 : ℤ) ≤ ⌊2 * Real.pi / Real.arccos A⌋ := by
        rw [Int.le_floor, le_div_iff₀ hpos]; push_cast; linarith
      have f2 : ⌊2 * Real.pi / Real.arccos A⌋ < (60 : ℤ) := by
        rw [Int.floor_lt, div_lt_iff₀ hpos]; push_cast; linarith
      have g1 : (1 : ℝ) ≤ (⌊2 * Real.pi / Real.arccos A⌋ : ℤ) := by exact_mod_cast (by omega : (1 : ℤ) ≤ _)
      have g2 : ((⌊2 * Real.pi / Real.arccos A⌋ : ℤ) : ℝ) ≤ 59 := by exact_mod_cast (by omega : _ ≤ (59 : ℤ))
      unfold clamp
      rw [if_neg (by linarith), if_neg (by linarith)]
  · rw [if_pos (by linarith), if_pos hgt]; norm_num

/-- At exactly ±87 the code reports one zone where the standard has two. -/
theorem nl_87 : nl 87 = 1 ∧ NL 87 = 2 := by
  constructor
  · unfold nl; norm_num
  · unfold NL; norm_num

theorem NL_range (lat : ℝ) : 1 ≤ NL lat ∧ NL lat ≤ 59 := by
  by_cases h : |lat| = 87
  · unfold NL; rw [if_neg (by linarith), if_pos h]; norm_num
  · obtain ⟨n, h1, h2, h3⟩ := nl_int lat
    rw [nl_eq_NL h] at h1
    have : NL lat = n := by exact_mod_cast h1
    omega

theorem lonZones_pos (odd : Bool) (lat : ℝ) : 1 ≤ lonZones odd lat := le_max_right _ _

theorem Dlon_pos (odd : Bool) (lat : ℝ) : 0 < Dlon odd lat := by
  have : (0 : ℝ) < lonZones odd lat := by exact_mod_cast (by have := lonZones_pos odd lat; omega)
  unfold Dlon; positivity

/-! ### Local decoding -/

/-- Nearest-zone choice: the zone number is recovered when the reference is less than half a zone
from the value. -/
theorem zone_floor (D ref : ℝ) (hD : 0 < D) (z : ℤ) (y : ℝ) (h : |ref - D * (z + y)| < D / 2) :
    ⌊ref / D - y + 0.5⌋ = z := by
  rw [Int.floor_eq_iff]
  rw [abs_lt] at h
  have e : ref / D - y + 0.5 = z + ((ref - D * (z + y)) / D + 0.5) := by field_simp; ring
  rw [e]
  have h1 : -(1 / 2) < (ref - D * (z + y)) / D := by rw [lt_div_iff₀ hD]; linarith
  have h2 : (ref - D * (z + y)) / D < 1 / 2 := by rw [div_lt_iff₀ hD]; linarith
  constructor <;> norm_num <;> linarith

theorem zone_floor_general (D ref : ℝ) (hD : 0 < D) (y : ℝ) :
    |D * ((⌊ref / D - y + 0.5⌋ : ℤ) + y) - ref| ≤ D / 2 := by
  have h1 := Int.floor_le (ref / D - y + 0.5)
  have h2 := Int.lt_floor_add_one (ref / D - y + 0.5)
  generalize ((⌊ref / D - y + 0.5⌋ : ℤ) : ℝ) = f at *
  have e : D * (f + y) - ref = D * (f + y - ref / D) := by field_simp
  have : |f + y - ref / D| ≤ 1 / 2 := by
    rw [abs_le]; norm_num at h1 h2; constructor <;> linarith
  rw [e, abs_mul, abs_of_pos hD]
  calc D * |f + y - ref / D| ≤ D * (1 / 2) := by gcongr
    _ = D / 2 := by ring

theorem foldLon_same (x : ℝ) : SameLon (foldLon x) x := by
  unfold foldLon SameLon
  split
  · exact ⟨-1, by push_cast; ring⟩
  · exact ⟨0, by simp⟩

theorem Rlat_bounds (odd : Bool) (lat : ℝ) (h1 : -90 ≤ lat) (h2 : lat ≤ 90) :
    -91 < Rlat odd lat ∧ Rlat odd lat < 91 := by
  have := R_close (Dlat odd) lat (Dlat_pos odd)
  have hd := Dlat_le odd
  rw [abs_le] at this
  unfold Rlat
  constructor
  · have : Dlat odd / 2 ^ 18 < 1 := by rw [div_lt_iff₀ (by norm_num)]; linarith
    linarith
  · have : Dlat odd / 2 ^ 18 < 1 := by rw [div_lt_iff₀ (by norm_num)]; linarith
    linarith

theorem nLon_eq (odd : Bool) (lat : ℝ) (h : |Rlat odd lat| ≠ 87) :
    (if odd then max (nl (Rlat odd lat) - 1) 1 else max (nl (Rlat odd lat)) 1) = (lonZones odd lat : ℝ) := by
  rw [nl_eq_NL h]
  unfold lonZones parity
  cases odd <;> simp

theorem local_recovers' (odd : Bool) (lat lon refLat refLon : ℝ) (h1 : -90 ≤ lat) (h2 : lat ≤ 90)
    (h87 : |Rlat odd lat| ≠ 87) (hlat : |refLat - Rlat odd lat| < Dlat odd / 2)
    (hlon : ∃ k : ℤ, |refLon + 360 * k - Rlon odd lat lon| < Dlon odd lat / 2) :
    (decodeLocally (txLat odd lat) (txLon odd lat lon) odd refLat refLon).1 = Rlat odd lat ∧
    SameLon (decodeLocally (txLat odd lat) (txLon odd lat lon) odd refLat refLon).2 (Rlon odd lat lon) := by
  have hD := Dlat_pos odd
  have hs := R_split (Dlat odd) lat hD
  have hj : ⌊refLat / Dlat odd - (txLat odd lat : ℝ) / 131072 + 0.5⌋ = rnd (Dlat odd) lat / 2 ^ 17 := by
    apply zone_floor _ _ hD
    have : Dlat odd * (((rnd (Dlat odd) lat / 2 ^ 17 : ℤ) : ℝ) + (txLat odd lat : ℝ) / 131072) = Rlat odd lat := hs.symm
    rw [this]; exact hlat
  have hb := Rlat_bounds odd lat h1 h2
  have hl : foldLat (Dlat odd * (((rnd (Dlat odd) lat / 2 ^ 17 : ℤ) : ℝ) + (txLat odd lat : ℝ) / 131072)) = Rlat odd lat := by
    rw [show Dlat odd * (((rnd (Dlat odd) lat / 2 ^ 17 : ℤ) : ℝ) + (txLat odd lat : ℝ) / 131072) = Rlat odd lat from hs.symm]
    unfold foldLat; rw [if_neg (by linarith)]
  unfold decodeLocally
  simp only [dlat_eq, hj, hl, nLon_eq odd lat h87, true_and]
  have hDl := Dlon_pos odd lat
  have hsl := R_split (Dlon odd lat) lon hDl
  obtain ⟨k, hk⟩ := hlon
  have hz : (0 : ℝ) < lonZones odd lat := by exact_mod_cast (by have := lonZones_pos odd lat; omega)
  have hm : ⌊refLon / Dlon odd lat - (txLon odd lat lon : ℝ) / 131072 + 0.5⌋ =
      rnd (Dlon odd lat) lon / 2 ^ 17 - k * lonZones odd lat := by
    apply zone_floor _ _ hDl
    have e : Dlon odd lat * (((rnd (Dlon odd lat) lon / 2 ^ 17 - k * lonZones odd lat : ℤ) : ℝ) + (txLon odd lat lon : ℝ) / 131072)
        = Rlon odd lat lon - 360 * k := by
      rw [show Rlon odd lat lon = R (Dlon odd lat) lon from rfl, hsl]
      have : Dlon odd lat * (k * lonZones odd lat) = 360 * k := by unfold Dlon; field_simp
      rw [Int.cast_sub, Int.cast_mul]
      rw [show txLon odd lat lon = tx (Dlon odd lat) lon from rfl]
      linear_combination -this
    rw [e]
    convert hk using 2; ring
  have hd' : 360 / (lonZones odd lat : ℝ) = Dlon odd lat := rfl
  rw [hd', hm]
  obtain ⟨k', hk'⟩ := foldLon_same (Dlon odd lat * (((rnd (Dlon odd lat) lon / 2 ^ 17 - k * lonZones odd lat : ℤ) : ℝ) + (txLon odd lat lon : ℝ) / 131072))
  refine ⟨k' - k, ?_⟩
  rw [hk']
  have : Dlon odd lat * (k * lonZones odd lat) = 360 * k := by unfold Dlon; field_simp
  rw [show Rlon odd lat lon = R (Dlon odd lat) lon from rfl, hsl,
    show txLon odd lat lon = tx (Dlon odd lat) lon from rfl, Int.cast_sub, Int.cast_mul, Int.cast_sub]
  linear_combination -this

/-! ### Global decoding -/

theorem remEuclid_int (a n : ℤ) (hn : 0 < n) : remEuclid (a : ℝ) (n : ℝ) = ((a % n : ℤ) : ℝ) := by
  unfold remEuclid
  have hn' : (0 : ℝ) < n := by exact_mod_cast hn
  have : ⌊(a : ℝ) / n⌋ = a / n := by
    rw [Int.floor_eq_iff]
    have h1 := Int.mul_ediv_add_emod a n
    have h2 := Int.emod_nonneg a (show n ≠ 0 by omega)
    have h3 := Int.emod_lt_of_pos a hn
    constructor
    · rw [le_div_iff₀ hn']
      have : a / n * n ≤ a := by nlinarith
      exact_mod_cast this
    · rw [div_lt_iff₀ hn']
      have : a < (a / n + 1) * n := by nlinarith
      exact_mod_cast this
  rw [this, Int.emod_def]
  push_cast; ring

theorem floor_near (x e : ℝ) (k : ℤ) (hx : x = k + e) (h1 : -(1 / 2) ≤ e) (h2 : e < 1 / 2) : ⌊x + 0.5⌋ = k := by
  rw [Int.floor_eq_iff, hx]
  norm_num
  constructor <;> linarith

/-- Fractions of two zone systems with `n` and `n - 1` zones per turn that encode the same value. -/
theorem pair_floor (n : ℤ) (hn : 2 ≤ n) (hn2 : n ≤ 60) (x D0 D1 : ℝ) (h0 : D0 = 360 / n) (h1 : D1 = 360 / ((n : ℝ) - 1)) :
    ⌊((n : ℝ) - 1) * ((tx D0 x : ℝ) / 131072) - n * ((tx D1 x : ℝ) / 131072) + 0.5⌋ =
      n * (rnd D1 x / 2 ^ 17) - (n - 1) * (rnd D0 x / 2 ^ 17) := by
  have hn' : (2 : ℝ) ≤ n := by exact_mod_cast hn
  have hn2' : (n : ℝ) ≤ 60 := by exact_mod_cast hn2
  have hD0 : 0 < D0 := by rw [h0]; positivity
  have hD1 : 0 < D1 := by rw [h1]; apply div_pos <;> linarith
  have s0 := R_split D0 x hD0
  have s1 := R_split D1 x hD1
  have c0 := R_close D0 x hD0
  have c1 := R_close D1 x hD1
  set z0 := rnd D0 x / 2 ^ 17
  set z1 := rnd D1 x / 2 ^ 17
  have t0 : (tx D0 x : ℝ) / 131072 = R D0 x * n / 360 - z0 := by
    rw [s0, h0]; field_simp; ring
  have hn3 : (n : ℝ) - 1 ≠ 0 := by linarith
  have t1 : (tx D1 x : ℝ) / 131072 = R D1 x * (n - 1) / 360 - z1 := by
    rw [s1, h1]; field_simp; ring
  apply floor_near _ ((n : ℝ) * (n - 1) / 360 * (R D0 x - R D1 x))
  · rw [t0, t1]; push_cast; ring
  all_goals
    have hd : |R D0 x - R D1 x| ≤ (D0 + D1) / 2 ^ 18 := by
      have : R D0 x - R D1 x = (R D0 x - x) - (R D1 x - x) := by ring
      rw [this]
      calc |R D0 x - x - (R D1 x - x)| ≤ |R D0 x - x| + |R D1 x - x| := abs_sub _ _
        _ ≤ D0 / 2 ^ 18 + D1 / 2 ^ 18 := add_le_add c0 c1
        _ = _ := by ring
    have hc : 0 ≤ (n : ℝ) * (n - 1) / 360 := by
      apply div_nonneg _ (by norm_num)
      apply mul_nonneg <;> linarith
    have hb : |(n : ℝ) * (n - 1) / 360 * (R D0 x - R D1 x)| ≤ (2 * n - 1) / 2 ^ 18 := by
      rw [abs_mul, abs_of_nonneg hc]
      calc (n : ℝ) * (n - 1) / 360 * |R D0 x - R D1 x| ≤ (n : ℝ) * (n - 1) / 360 * ((D0 + D1) / 2 ^ 18) := by gcongr
        _ = (2 * n - 1) / 2 ^ 18 := by rw [h0, h1]; field_simp; ring
    have hb2 : ((2 : ℝ) * n - 1) / 2 ^ 18 < 1 / 4 := by
      rw [div_lt_iff₀ (by norm_num)]; linarith
    rw [abs_le] at hb
    linarith

theorem emod_even (n a b : ℤ) : (n * a - (n - 1) * b) % n = b % n := by
  have : n * a - (n - 1) * b = b + n * (a - b) := by ring
  rw [this, Int.add_mul_emod_self_left]

theorem emod_odd (n a b : ℤ) : (n * a - (n - 1) * b) % (n - 1) = a % (n - 1) := by
  have : n * a - (n - 1) * b = a + (n - 1) * (a - b) := by ring
  rw [this, Int.add_mul_emod_self_left]

theorem foldLat_zone (odd : Bool) (lat : ℝ) (h1 : -90 ≤ lat) (h2 : lat ≤ 90) (hlow : -90 ≤ Rlat odd lat) :
    foldLat (Dlat odd * (((rnd (Dlat odd) lat / 2 ^ 17 % (60 - parity odd) : ℤ) : ℝ) + (txLat odd lat : ℝ) / 131072)) =
      Rlat odd lat := by
  have hD := Dlat_pos odd
  have hs : Rlat odd lat = _ := R_split (Dlat odd) lat hD
  have hb := Rlat_bounds odd lat h1 h2
  have htx := tx_lt (Dlat odd) lat hD
  have htx' : (tx (Dlat odd) lat : ℝ) / 131072 < 1 := by
    rw [div_lt_one (by norm_num)]; exact_mod_cast htx
  have htx0 : 0 ≤ (tx (Dlat odd) lat : ℝ) / 131072 := by positivity
  change foldLat (Dlat odd * (_ + (tx (Dlat odd) lat : ℝ) / 131072)) = _
  set z := rnd (Dlat odd) lat / 2 ^ 17 with hz
  set y := (tx (Dlat odd) lat : ℝ) / 131072 with hy
  have hDn : Dlat odd * (60 - parity odd) = 360 := by unfold Dlat parity; cases odd <;> norm_num
  have hN : (59 : ℤ) ≤ 60 - parity odd := by unfold parity; cases odd <;> norm_num
  have hN2 : 60 - parity odd ≤ (60 : ℤ) := by unfold parity; cases odd <;> norm_num
  have hDle := Dlat_le odd
  have hDge : (6 : ℝ) ≤ Dlat odd := by unfold Dlat parity; cases odd <;> norm_num
  have hzlo : -17 < z := by
    by_contra hc
    push Not at hc
    have hc' : (z : ℝ) ≤ -17 := by exact_mod_cast hc
    have : Dlat odd * (z + y) ≤ Dlat odd * (-16) := by
      apply mul_le_mul_of_nonneg_left _ hD.le; linarith
    linarith
  have hzhi : z < 16 := by
    by_contra hc
    push Not at hc
    have hc' : (16 : ℝ) ≤ z := by exact_mod_cast hc
    have : Dlat odd * 16 ≤ Dlat odd * (z + y) := by
      apply mul_le_mul_of_nonneg_left _ hD.le; linarith
    linarith
  by_cases hneg : 0 ≤ z
  · rw [Int.emod_eq_of_lt hneg (by omega), ← hs]
    unfold foldLat; rw [if_neg (by linarith)]
  · push Not at hneg
    have e : z % (60 - parity odd) = z + (60 - parity odd) := by
      rw [← Int.add_emod_right, Int.emod_eq_of_lt (by omega) (by omega)]
    rw [e]
    have : Dlat odd * (((z + (60 - parity odd) : ℤ) : ℝ) + y) = Rlat odd lat + 360 := by
      rw [hs]; push_cast; linear_combination hDn
    rw [this]
    unfold foldLat; rw [if_pos (by linarith)]; ring

theorem foldLon_range {x : ℝ} (h1 : 0 ≤ x) (h2 : x < 360) : -180 ≤ foldLon x ∧ foldLon x < 180 := by
  unfold foldLon; split <;> constructor <;> linarith

theorem Rlat_ge (odd : Bool) (lat : ℝ) (h1 : -90 ≤ lat) : -90 ≤ Rlat odd lat := by
  unfold Rlat
  have hD := Dlat_pos odd
  rw [R_eq _ _ hD]
  have hmono : rnd (Dlat odd) (-90) ≤ rnd (Dlat odd) lat := by
    unfold rnd
    apply Int.floor_le_floor
    gcongr
  have hv : Dlat odd * ((rnd (Dlat odd) (-90) : ℝ) / 2 ^ 17) = -90 := by
    have : 2 ^ 17 * (-90 / Dlat odd) = ((if odd then -1933312 else -1966080 : ℤ) : ℝ) := by
      unfold Dlat parity; cases odd <;> norm_num
    unfold rnd
    rw [this, Int.floor_intCast_add]
    norm_num
    unfold Dlat parity; cases odd <;> norm_num
  rw [← hv]
  have hmono' : (rnd (Dlat odd) (-90) : ℝ) ≤ rnd (Dlat odd) lat := by exact_mod_cast hmono
  gcongr

/-- Longitude from the zone number modulo the number of zones. -/
theorem lon_zone (n : ℤ) (hn : 1 ≤ n) (lon : ℝ) (D : ℝ) (hDn : D = 360 / n) :
    SameLon (foldLon (D * (((rnd D lon / 2 ^ 17 % n : ℤ) : ℝ) + (tx D lon : ℝ) / 131072))) (R D lon) ∧
    -180 ≤ foldLon (D * (((rnd D lon / 2 ^ 17 % n : ℤ) : ℝ) + (tx D lon : ℝ) / 131072)) ∧
    foldLon (D * (((rnd D lon / 2 ^ 17 % n : ℤ) : ℝ) + (tx D lon : ℝ) / 131072)) < 180 := by
  have hn' : (1 : ℝ) ≤ n := by exact_mod_cast hn
  have hD : 0 < D := by rw [hDn]; positivity
  have hs := R_split D lon hD
  have htx := tx_lt D lon hD
  have htx' : (tx D lon : ℝ) / 131072 < 1 := by
    rw [div_lt_one (by norm_num)]; exact_mod_cast htx
  have htx0 : 0 ≤ (tx D lon : ℝ) / 131072 := by positivity
  set z := rnd D lon / 2 ^ 17
  set y := (tx D lon : ℝ) / 131072
  have hDn' : D * n = 360 := by rw [hDn]; field_simp
  refine ⟨?_, ?_⟩
  · obtain ⟨k, hk⟩ := foldLon_same (D * (((z % n : ℤ) : ℝ) + y))
    refine ⟨k - z / n, ?_⟩
    rw [hk, hs]
    have : ((z % n : ℤ) : ℝ) = z - n * ((z / n : ℤ) : ℝ) := by rw [Int.emod_def]; push_cast; ring
    rw [this, Int.cast_sub]
    linear_combination (-((z / n : ℤ) : ℝ)) * hDn'
  · have h1 := Int.emod_nonneg z (show n ≠ 0 by omega)
    have h2 := Int.emod_lt_of_pos z (show 0 < n by omega)
    have h1' : (0 : ℝ) ≤ ((z % n : ℤ) : ℝ) := by exact_mod_cast h1
    have h2' : ((z % n : ℤ) : ℝ) + 1 ≤ n := by exact_mod_cast h2
    apply foldLon_range
    · positivity
    · calc D * (((z % n : ℤ) : ℝ) + y) < D * n := by
            apply mul_lt_mul_of_pos_left _ hD; linarith
        _ = 360 := hDn'

/-- What global decoding of two messages about the same position returns, in full. -/
theorem global_decode (lat lon : ℝ) (latest : Bool) (h1 : -90 ≤ lat) (h2 : lat ≤ 90)
    (h87 : |Rlat false lat| ≠ 87) (h87' : |Rlat true lat| ≠ 87) :
    (NL (Rlat false lat) ≠ NL (Rlat true lat) ∧
      decodeGlobally (txLat false lat) (txLon false lat lon) (txLat true lat) (txLon true lat lon) latest
        = .err .nlMismatch) ∨
    (NL (Rlat false lat) = NL (Rlat true lat) ∧
      ((latest = true ∧ NL (Rlat true lat) = 1 ∧
        decodeGlobally (txLat false lat) (txLon false lat lon) (txLat true lat) (txLon true lat lon) latest
          = .ok (Rlat true lat, none)) ∨
       (¬ (latest = true ∧ NL (Rlat true lat) = 1) ∧ ∃ L,
        decodeGlobally (txLat false lat) (txLon false lat lon) (txLat true lat) (txLon true lat lon) latest
          = .ok (Rlat latest lat, some L) ∧ SameLon L (Rlon latest lat lon) ∧ -180 ≤ L ∧ L < 180))) := by
  have hlow0 := Rlat_ge false lat h1
  have hlow1 := Rlat_ge true lat h1
  have hj : ⌊59 * ((txLat false lat : ℝ) / 131072) - 60 * ((txLat true lat : ℝ) / 131072) + 0.5⌋ =
      60 * (rnd (Dlat true) lat / 2 ^ 17) - 59 * (rnd (Dlat false) lat / 2 ^ 17) := by
    have := pair_floor 60 (by norm_num) (by norm_num) lat (Dlat false) (Dlat true)
      (by unfold Dlat parity; norm_num) (by unfold Dlat parity; norm_num)
    norm_num at this ⊢
    exact this
  have e0 : foldLat (dlat false * (remEuclid ((⌊59 * ((txLat false lat : ℝ) / 131072) - 60 * ((txLat true lat : ℝ) / 131072) + 0.5⌋ : ℤ) : ℝ) 60
      + (txLat false lat : ℝ) / 131072)) = Rlat false lat := by
    rw [hj, dlat_eq, show (60 : ℝ) = ((60 : ℤ) : ℝ) by norm_num, remEuclid_int _ _ (by norm_num)]
    have : (60 * (rnd (Dlat true) lat / 2 ^ 17) - 59 * (rnd (Dlat false) lat / 2 ^ 17)) % 60 =
      rnd (Dlat false) lat / 2 ^ 17 % (60 - parity false) := emod_even 60 _ _
    rw [this]
    exact foldLat_zone false lat h1 h2 hlow0
  have e1 : foldLat (dlat true * (remEuclid ((⌊59 * ((txLat false lat : ℝ) / 131072) - 60 * ((txLat true lat : ℝ) / 131072) + 0.5⌋ : ℤ) : ℝ) 59
      + (txLat true lat : ℝ) / 131072)) = Rlat true lat := by
    rw [hj, dlat_eq, show (59 : ℝ) = ((59 : ℤ) : ℝ) by norm_num, remEuclid_int _ _ (by norm_num)]
    have : (60 * (rnd (Dlat true) lat / 2 ^ 17) - 59 * (rnd (Dlat false) lat / 2 ^ 17)) % 59 =
      rnd (Dlat true) lat / 2 ^ 17 % (60 - parity true) := emod_odd 60 _ _
    rw [this]
    exact foldLat_zone true lat h1 h2 hlow1
  unfold decodeGlobally
  simp only [e0, e1, nl_eq_NL h87, nl_eq_NL h87']
  by_cases hnl : NL (Rlat false lat) = NL (Rlat true lat)
  · right
    refine ⟨hnl, ?_⟩
    rw [if_neg (by rw [hnl, sub_self, abs_zero]; norm_num)]
    obtain ⟨hr1, hr2⟩ := NL_range (Rlat true lat)
    cases latest with
    | false =>
      right
      refine ⟨by simp, ?_⟩
      simp only [Bool.false_eq_true, if_false, nl_eq_NL h87]
      rw [hnl]
      set n := NL (Rlat true lat) with hn
      have hn1 : (1 : ℝ) ≤ n := by exact_mod_cast hr1
      have hz0 : lonZones false lat = n := by
        unfold lonZones parity; rw [hnl]; simp; omega
      have hD0 : Dlon false lat = 360 / (n : ℝ) := by unfold Dlon; rw [hz0]
      have hm : ⌊(txLon false lat lon : ℝ) * ((n : ℝ) - 1) / 131072 - (txLon true lat lon : ℝ) * n / 131072 + 0.5⌋ % n =
          rnd (Dlon false lat) lon / 2 ^ 17 % n := by
        by_cases hn2 : n = 1
        · rw [hn2, Int.emod_one, Int.emod_one]
        · have hz1 : lonZones true lat = n - 1 := by
            unfold lonZones parity; rw [← hn]; simp; omega
          have hD1 : Dlon true lat = 360 / ((n : ℝ) - 1) := by unfold Dlon; rw [hz1]; push_cast; rfl
          have := pair_floor n (by omega) (by omega) lon (Dlon false lat) (Dlon true lat) hD0 hD1
          rw [← emod_even n (rnd (Dlon true lat) lon / 2 ^ 17) (rnd (Dlon false lat) lon / 2 ^ 17), ← this]
          congr 2
          change _ = ((n : ℝ) - 1) * ((txLon false lat lon : ℝ) / 131072) - n * ((txLon true lat lon : ℝ) / 131072) + 0.5
          ring
      rw [if_neg (by linarith), show remEuclidNaN _ (n : ℝ) = some _ from if_neg (by linarith)]
      rw [remEuclid_int _ _ (by omega), hm]
      simp only [Option.map_some]
      rw [← hD0]
      refine ⟨_, rfl, ?_⟩
      exact lon_zone n hr1 lon (Dlon false lat) hD0
    | true =>
      simp only [if_true, nl_eq_NL h87', true_and]
      set n := NL (Rlat true lat) with hn
      by_cases hn2 : n = 1
      · left
        refine ⟨hn2, ?_⟩
        rw [hn2]
        simp [remEuclidNaN]
      · right
        refine ⟨hn2, ?_⟩
        have hn3 : (2 : ℤ) ≤ n := by omega
        have hn4 : (2 : ℝ) ≤ n := by exact_mod_cast hn3
        have hz0 : lonZones false lat = n := by
          unfold lonZones parity; rw [hnl]; simp; omega
        have hD0 : Dlon false lat = 360 / (n : ℝ) := by unfold Dlon; rw [hz0]
        have hz1 : lonZones true lat = n - 1 := by
          unfold lonZones parity; rw [← hn]; simp; omega
        have hD1 : Dlon true lat = 360 / ((n : ℝ) - 1) := by unfold Dlon; rw [hz1]; push_cast; rfl
        have hD1' : Dlon true lat = 360 / ((n - 1 : ℤ) : ℝ) := by rw [hD1]; push_cast; rfl
        have := pair_floor n (by omega) (by omega) lon (Dlon false lat) (Dlon true lat) hD0 hD1
        have hm : ⌊(txLon false lat lon : ℝ) * ((n : ℝ) - 1) / 131072 - (txLon true lat lon : ℝ) * n / 131072 + 0.5⌋ =
            n * (rnd (Dlon true lat) lon / 2 ^ 17) - (n - 1) * (rnd (Dlon false lat) lon / 2 ^ 17) := by
          rw [← this]
          congr 1
          change _ = ((n : ℝ) - 1) * ((txLon false lat lon : ℝ) / 131072) - n * ((txLon true lat lon : ℝ) / 131072) + 0.5
          ring
        rw [hm, if_neg (by linarith), show remEuclidNaN _ ((n : ℝ) - 1) = some _ from if_neg (by linarith)]
        rw [show (n : ℝ) - 1 = ((n - 1 : ℤ) : ℝ) by push_cast; rfl, remEuclid_int _ _ (by omega), emod_odd]
        simp only [Option.map_some]
        rw [← hD1']
        refine ⟨_, rfl, ?_⟩
        exact lon_zone (n - 1) (by omega) lon (Dlon true lat) hD1'
  · left
    refine ⟨hnl, ?_⟩
    rw [if_pos]
    have : (1 : ℝ) ≤ |((NL (Rlat false lat) - NL (Rlat true lat) : ℤ) : ℝ)| := by
      rw [← Int.cast_abs]
      have : (1 : ℤ) ≤ |NL (Rlat false lat) - NL (Rlat true lat)| := Int.one_le_abs (by omega)
      exact_mod_cast this
    push_cast at this
    norm_num
    linarith

/-- An inconsistent pair of fields: latitude 180 degrees is returned. -/
theorem global_out_of_range : ∃ L, decodeGlobally 0 0 65536 0 false = .ok (180, some L) := by
  have hj : ⌊59 * (((0 : ℕ) : ℝ) / 131072) - 60 * (((65536 : ℕ) : ℝ) / 131072) + 0.5⌋ = -30 := by
    rw [Int.floor_eq_iff]; norm_num
  have r60 : remEuclid ((-30 : ℤ) : ℝ) 60 = 30 := by
    have := remEuclid_int (-30) 60 (by norm_num)
    norm_num at this ⊢; exact this
  have r59 : remEuclid ((-30 : ℤ) : ℝ) 59 = 29 := by
    have := remEuclid_int (-30) 59 (by norm_num)
    norm_num at this ⊢; exact this
  have hE : foldLat (dlat false * (30 + ((0 : ℕ) : ℝ) / 131072)) = 180 := by
    rw [dlat_eq]; unfold Dlat parity foldLat; norm_num
  have hO : foldLat (dlat true * (29 + ((65536 : ℕ) : ℝ) / 131072)) = 180 := by
    rw [dlat_eq]; unfold Dlat parity foldLat; norm_num
  have hn : nl 180 = 1 := by unfold nl; norm_num
  unfold decodeGlobally
  simp only [hj, r60, r59, hE, hO, hn]
  norm_num [remEuclidNaN]
  rw [hn]
  exact ⟨_, _, ⟨by norm_num, rfl⟩, rfl⟩

end Verif.Adsb
