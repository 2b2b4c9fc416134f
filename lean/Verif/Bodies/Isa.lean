import Mathlib.Analysis.SpecialFunctions.Pow.Deriv
import Mathlib.Analysis.SpecialFunctions.ExpDeriv
import Mathlib.Analysis.SpecialFunctions.Log.Deriv
import Mathlib.Analysis.Calculus.MeanValue
import Verif.Bodies.Model

/-!
# Standard atmosphere
-/

namespace Verif.Bodies.Isa

open Real

/-! ## What the standard says -/

/-- The standard temperature: 15 °C at sea level, falling by 6.5 K per kilometre up to 11 km, constant above. -/
noncomputable def Standard (h : ℝ) : ℝ := 288.15 - 6.5 * (min h 11000 / 1000)

/-- Hydrostatic equilibrium of an ideal gas at the standard temperature: `dp = -ρ g dh` with `ρ = p M / (R T)`, and the
standard pressure at sea level. -/
structure Hydrostatic (p : ℝ → ℝ) : Prop where
  sea : p 0 = 101325
  balance : ∀ h, HasDerivAt p (-(p h * 0.0289644 / (8.314462618 * Standard h)) * 9.80665) h

theorem standard_pos (h : ℝ) : 0 < Standard h := by
  unfold Standard
  have := min_le_right h (11000 : ℝ)
  generalize min h (11000 : ℝ) = m at this
  norm_num
  linarith

/-- The temperature is the standard one. -/
theorem temperature_standard (h : ℝ) : temperature h = Standard h := by
  unfold temperature Standard T0 lapse hTropo tTropo
  split
  · rw [min_eq_left ‹_›]; norm_num; ring
  · rw [min_eq_right (by linarith)]; norm_num

/-! ## Pressure -/

theorem exp_pos' : 0 < expTrop := by unfold expTrop G0 M R lapse; norm_num

noncomputable def base (h : ℝ) : ℝ := 1 + lapse * h / T0

theorem base_eq (h : ℝ) : base h = 1 - 6.5e-3 * h / 288.15 := by
  unfold base lapse T0; norm_num; ring

theorem base_pos {h : ℝ} (hh : h ≤ hTropo) : 0 < base h := by
  rw [base_eq]; unfold hTropo at hh; norm_num; linarith

theorem base_tropo : base hTropo = 216.65 / 288.15 := by rw [base_eq]; unfold hTropo; norm_num

theorem pTropo_eq : pTropo = P0 * base hTropo ^ expTrop := rfl

theorem P0_pos : 0 < P0 := by unfold P0; norm_num

theorem pTropo_pos : 0 < pTropo := by
  rw [pTropo_eq]
  exact mul_pos P0_pos (rpow_pos_of_pos (base_pos le_rfl) _)

noncomputable def trop (h : ℝ) : ℝ := P0 * base h ^ expTrop
noncomputable def strat (h : ℝ) : ℝ := pTropo * exp (-G0 * M * (h - hTropo) / (R * tTropo))

theorem trop_tropo : trop hTropo = pTropo := rfl
theorem strat_tropo : strat hTropo = pTropo := by unfold strat; simp

theorem pressure_trop {h : ℝ} (hh : h ≤ hTropo) : pressure h = trop h := if_pos hh
theorem pressure_strat {h : ℝ} (hh : hTropo ≤ h) : pressure h = strat h := by
  rcases hh.eq_or_lt with rfl | hh
  · rw [pressure_trop le_rfl, trop_tropo, strat_tropo]
  · exact if_neg (not_le.mpr hh)

theorem pressure_pos (h : ℝ) : 0 < pressure h := by
  rcases le_total h hTropo with hh | hh
  · rw [pressure_trop hh]; exact mul_pos P0_pos (rpow_pos_of_pos (base_pos hh) _)
  · rw [pressure_strat hh]; exact mul_pos pTropo_pos (exp_pos _)

theorem trop_deriv {h : ℝ} (hh : h ≤ hTropo) :
    HasDerivAt trop (-(trop h * 0.0289644 / (8.314462618 * Standard h)) * 9.80665) h := by
  have hb := base_pos hh
  have h1 : HasDerivAt base (lapse / T0) h := by
    have := (((hasDerivAt_id h).const_mul lapse).div_const T0).const_add 1
    rw [mul_one] at this
    exact this
  have h2 := (h1.rpow_const (p := expTrop) (Or.inl hb.ne')).const_mul P0
  refine h2.congr_deriv ?_
  have hs : Standard h = 288.15 * base h := by
    rw [base_eq]; unfold Standard; rw [min_eq_left (show h ≤ 11000 from hh)]; norm_num; ring
  rw [hs, rpow_sub_one hb.ne']
  unfold trop expTrop G0 M R lapse T0
  generalize P0 = a
  generalize base h ^ _ = b
  field_simp

theorem strat_deriv {h : ℝ} (hh : hTropo ≤ h) :
    HasDerivAt strat (-(strat h * 0.0289644 / (8.314462618 * Standard h)) * 9.80665) h := by
  have h1 : HasDerivAt (fun h => -G0 * M * (h - hTropo) / (R * tTropo)) (-G0 * M / (R * tTropo)) h := by
    have := ((((hasDerivAt_id h).sub_const hTropo).const_mul (-G0 * M)).div_const (R * tTropo))
    simpa using this
  have h2 := h1.exp.const_mul pTropo
  refine h2.congr_deriv ?_
  have hs : Standard h = 216.65 := by
    unfold Standard; rw [min_eq_right (show 11000 ≤ h from hh)]; norm_num
  rw [hs]
  unfold strat
  generalize pTropo = a
  generalize exp _ = b
  unfold G0 M R tTropo
  field_simp

/-- The pressure is in hydrostatic equilibrium everywhere, the tropopause included. -/
theorem pressure_hydrostatic : Hydrostatic pressure := by
  refine ⟨?_, fun h => ?_⟩
  · rw [pressure_trop (by unfold hTropo; norm_num)]
    unfold trop base P0
    norm_num
  · rcases lt_trichotomy h hTropo with hh | hh | hh
    · rw [pressure_trop hh.le]
      refine (trop_deriv hh.le).congr_of_eventuallyEq ?_
      filter_upwards [Iio_mem_nhds hh] with x hx
      exact pressure_trop (le_of_lt hx)
    · have h1 : HasDerivWithinAt pressure (-(pressure h * 0.0289644 / (8.314462618 * Standard h)) * 9.80665) (Set.Iic h) h := by
        rw [pressure_trop hh.le]
        refine (trop_deriv hh.le).hasDerivWithinAt.congr (fun x hx => pressure_trop ?_) (pressure_trop hh.le)
        exact (Set.mem_Iic.mp hx).trans hh.le
      have h2 : HasDerivWithinAt pressure (-(pressure h * 0.0289644 / (8.314462618 * Standard h)) * 9.80665) (Set.Ici h) h := by
        rw [pressure_strat hh.ge]
        refine (strat_deriv hh.ge).hasDerivWithinAt.congr (fun x hx => pressure_strat ?_) (pressure_strat hh.ge)
        exact hh.ge.trans (Set.mem_Ici.mp hx)
      have := h1.union h2
      rw [Set.Iic_union_Ici] at this
      exact this.hasDerivAt Filter.univ_mem
    · rw [pressure_strat hh.le]
      refine (strat_deriv hh.le).congr_of_eventuallyEq ?_
      filter_upwards [Ioi_mem_nhds hh] with x hx
      exact pressure_strat (le_of_lt hx)

/-- There is no other pressure in equilibrium. -/
theorem pressure_unique {p : ℝ → ℝ} (hp : Hydrostatic p) : p = pressure := by
  have hq := pressure_hydrostatic
  have hd : ∀ h, HasDerivAt (fun h => p h / pressure h) 0 h := by
    intro h
    have := (hp.balance h).div (hq.balance h) (pressure_pos h).ne'
    refine this.congr_deriv ?_
    rw [div_eq_zero_iff]
    left
    ring
  have hc := is_const_of_deriv_eq_zero (fun h => (hd h).differentiableAt) (fun h => (hd h).deriv)
  funext h
  have := hc h 0
  rw [hp.sea, hq.sea, div_self (by norm_num), div_eq_one_iff_eq (pressure_pos h).ne'] at this
  exact this

/-- Higher is thinner. -/
theorem pressure_decreases : StrictAnti pressure := by
  apply strictAnti_of_deriv_neg
  intro h
  rw [(pressure_hydrostatic.balance h).deriv]
  have h1 := pressure_pos h
  have h2 := standard_pos h
  have : 0 < pressure h * 0.0289644 / (8.314462618 * Standard h) := by positivity
  nlinarith

/-! ## Pressure altitude -/

theorem pressure_altitude (h : ℝ) : pressureAltitude (pressure h) = h := by
  unfold pressureAltitude
  rcases le_or_gt h hTropo with hh | hh
  · have h1 : pTropo ≤ pressure h := by
      rw [← trop_tropo, ← pressure_trop le_rfl]
      exact pressure_decreases.antitone hh
    rw [if_pos h1, pressure_trop hh]
    unfold trop
    rw [mul_div_cancel_left₀ _ P0_pos.ne', one_div, rpow_rpow_inv (base_pos hh).le exp_pos'.ne']
    unfold base lapse T0
    norm_num
    ring
  · have h1 : ¬ pTropo ≤ pressure h := by
      rw [← trop_tropo, ← pressure_trop le_rfl, not_le]
      exact pressure_decreases hh
    rw [if_neg h1, pressure_strat hh.le]
    unfold strat
    rw [mul_div_cancel_left₀ _ pTropo_pos.ne', log_exp]
    generalize hTropo = a
    unfold G0 M R tTropo
    norm_num
    ring

theorem altitude_pressure {p : ℝ} (hp : 0 < p) : pressure (pressureAltitude p) = p := by
  unfold pressureAltitude
  split
  · rename_i hh
    have hb : base (T0 / lapse * ((p / P0) ^ (1 / expTrop) - 1)) = (p / P0) ^ (1 / expTrop) := by
      generalize (p / P0) ^ (1 / expTrop) = x
      unfold base lapse T0
      norm_num
      ring
    have hge : base hTropo ≤ (p / P0) ^ (1 / expTrop) := by
      have h1 : base hTropo ^ expTrop ≤ p / P0 := by
        rw [le_div_iff₀ P0_pos, mul_comm]; exact hh
      have h2 := rpow_le_rpow (rpow_nonneg (base_pos le_rfl).le _) h1 (one_div_pos.mpr exp_pos').le
      rw [one_div] at h2 ⊢
      rwa [rpow_rpow_inv (base_pos le_rfl).le exp_pos'.ne'] at h2
    have hle : T0 / lapse * ((p / P0) ^ (1 / expTrop) - 1) ≤ hTropo := by
      rw [base_tropo] at hge
      unfold T0 lapse hTropo
      norm_num at hge ⊢
      linarith
    rw [pressure_trop hle]
    unfold trop
    rw [hb, one_div, rpow_inv_rpow (div_pos hp P0_pos).le exp_pos'.ne', mul_div_cancel₀ _ P0_pos.ne']
  · rename_i hh
    rw [not_le] at hh
    have hlog : log (p / pTropo) ≤ 0 := by
      apply log_nonpos (div_pos hp pTropo_pos).le
      rw [div_le_one pTropo_pos]; exact hh.le
    have hk : 0 < R * tTropo / (G0 * M) := by unfold R tTropo G0 M; norm_num
    have hge : hTropo ≤ hTropo - R * tTropo / (G0 * M) * log (p / pTropo) := by nlinarith
    rw [pressure_strat hge]
    unfold strat
    have : -G0 * M * (hTropo - R * tTropo / (G0 * M) * log (p / pTropo) - hTropo) / (R * tTropo) = log (p / pTropo) := by
      generalize log (p / pTropo) = x
      generalize hTropo = a
      unfold G0 M R tTropo
      norm_num
      ring
    rw [this, exp_log (div_pos hp pTropo_pos), mul_div_cancel₀ _ pTropo_pos.ne']

/-! ## Geopotential and geometric altitude -/

theorem geopotential_zero : geopotential 0 = 0 := by unfold geopotential; simp

/-- The geopotential altitude grows with the strength of gravity, which falls with the square of the distance. -/
theorem geopotential_gravity {z : ℝ} (hz : -6356766 < z) :
    HasDerivAt geopotential ((6356766 / (6356766 + z)) ^ 2) z := by
  have hne : rEarth + z ≠ 0 := by unfold rEarth; linarith
  have h := ((hasDerivAt_id z).const_mul rEarth).div ((hasDerivAt_id z).const_add rEarth) hne
  refine h.congr_deriv ?_
  simp only [id]
  have h6 : (6356766 : ℝ) = rEarth := rfl
  rw [h6]
  field_simp
  ring

theorem geometric_geopotential {z : ℝ} (hz : -6356766 < z) : geometric (geopotential z) = z := by
  unfold geometric geopotential
  have hne : rEarth + z ≠ 0 := by unfold rEarth; linarith
  have h0 : rEarth ≠ 0 := by unfold rEarth; norm_num
  have : rEarth - rEarth * z / (rEarth + z) = rEarth * rEarth / (rEarth + z) := by field_simp; ring
  rw [this]
  field_simp

theorem geopotential_geometric {h : ℝ} (hh : h < 6356766) : geopotential (geometric h) = h := by
  unfold geometric geopotential
  have hne : rEarth - h ≠ 0 := by unfold rEarth; linarith
  have h0 : rEarth ≠ 0 := by unfold rEarth; norm_num
  have : rEarth + rEarth * h / (rEarth - h) = rEarth * rEarth / (rEarth - h) := by field_simp; ring
  rw [this]
  field_simp

/-- The ranges match. -/
theorem geopotential_range {z : ℝ} (hz : -6356766 < z) : geopotential z < 6356766 := by
  unfold geopotential rEarth
  rw [div_lt_iff₀ (by linarith)]
  nlinarith

/-- Geopotential altitudes are the smaller. -/
theorem geopotential_lt {z : ℝ} (hz : -6356766 < z) (h0 : z ≠ 0) : geopotential z < z := by
  unfold geopotential rEarth
  rw [div_lt_iff₀ (by linarith)]
  have : 0 < z ^ 2 := by positivity
  nlinarith

/-- The argument of the pressure, documented as the geometric altitude, is a geopotential one: gravity is taken as constant,
and with geometric altitudes every pressure but that at sea level comes out too low. -/
theorem geometric_too_low {z : ℝ} (hz : -6356766 < z) (h0 : z ≠ 0) : pressure z < pressure (geopotential z) :=
  pressure_decreases (geopotential_lt hz h0)

/-! Examples. -/

example : temperature 5000 = 255.65 := by rw [temperature_standard]; unfold Standard; norm_num
example : pressureAltitude (pressure 15000) = 15000 := pressure_altitude _
example : pressure 12000 < pressure 3000 := pressure_decreases (by norm_num)

end Verif.Bodies.Isa
