import Mathlib.Analysis.Real.Pi.Bounds
import Verif.Sky.Horizontal
import Verif.Event.Props
import Mathlib.Geometry.Euclidean.Triangle
import Mathlib.Analysis.InnerProductSpace.PiL2

/-
Property C45: phase angle, illuminated fraction, elongation; and the principal phase events (C65).
-/
namespace Verif.Sky.Props
open Verif.Sky InnerProductGeometry

abbrev Space := EuclideanSpace ℝ (Fin 3)

/-- Unit vector of a longitude and latitude. -/
noncomputable def sky (lon lat : ℝ) : Space :=
  !₂[Real.cos lat * Real.cos lon, Real.cos lat * Real.sin lon, Real.sin lat]

theorem sky_inner (lon1 lat1 lon2 lat2 : ℝ) : inner ℝ (sky lon1 lat1) (sky lon2 lat2) =
    Real.sin lat1 * Real.sin lat2 + Real.cos lat1 * Real.cos lat2 * Real.cos (lon2 - lon1) := by
  rw [Real.cos_sub]
  simp [sky, PiLp.inner_apply, Fin.sum_univ_three]
  ring

theorem sky_norm (lon lat : ℝ) : ‖sky lon lat‖ = 1 := by
  have h : ‖sky lon lat‖ ^ 2 = 1 := by
    rw [← real_inner_self_eq_norm_sq, sky_inner, sub_self, Real.cos_zero]
    have := Real.sin_sq_add_cos_sq lat
    linarith
  have h0 := norm_nonneg (sky lon lat)
  nlinarith

/-- The separation computed is the angle between the two directions. -/
theorem great_circle_angle (lon1 lat1 lon2 lat2 : ℝ) :
    greatCircle lon1 lat1 lon2 lat2 = angle (sky lon1 lat1) (sky lon2 lat2) := by
  unfold greatCircle angle
  dsimp only
  rw [sky_norm, sky_norm, sky_inner, mul_one, div_one]
  have p1 := Real.sin_sq_add_cos_sq (lon2 - lon1)
  have p2 := Real.sin_sq_add_cos_sq lat1
  have p3 := Real.sin_sq_add_cos_sq lat2
  set x := Real.cos lat1 * Real.sin lat2 - Real.sin lat1 * Real.cos lat2 * Real.cos (lon2 - lon1) with hx
  set y := Real.cos lat2 * Real.sin (lon2 - lon1) with hy
  set z := Real.sin lat1 * Real.sin lat2 + Real.cos lat1 * Real.cos lat2 * Real.cos (lon2 - lon1) with hz
  have hsum : z ^ 2 + (x * x + y * y) = 1 := by
    rw [hx, hy, hz]
    linear_combination (Real.sin lat2 ^ 2 + Real.cos lat2 ^ 2 * Real.cos (lon2 - lon1) ^ 2) * p2 +
      Real.cos lat2 ^ 2 * p1 + p3
  have hnn : 0 ≤ x * x + y * y := add_nonneg (mul_self_nonneg _) (mul_self_nonneg _)
  have hnorm : ‖(⟨z, Real.sqrt (x * x + y * y)⟩ : ℂ)‖ = 1 := by
    rw [Complex.norm_def, Complex.normSq_mk, Real.mul_self_sqrt hnn]
    rw [show z * z + (x * x + y * y) = 1 by linarith, Real.sqrt_one]
  unfold atan2
  rw [Complex.arg_of_im_nonneg_of_ne_zero (by simp [Real.sqrt_nonneg]) (by
    intro h
    rw [h, norm_zero] at hnorm
    exact zero_ne_one hnorm), hnorm, div_one]

/-- The phase angle computed is the angle at the Moon between the directions to the Earth and to the Sun.
Distances: the Moon in kilometres, the Sun in astronomical units; the Earth is the origin. -/
theorem phase_angle_correct {V : Type*} [NormedAddCommGroup V] [InnerProductSpace ℝ V] {moon sun : V} (hm : moon ≠ 0)
    (hd : 1 / 10 ^ 15 ≤ ‖sun - moon‖) :
    phaseAngle (‖moon‖ * auKm) ‖sun‖ (angle moon sun) = angle (0 - moon) (sun - moon) := by
  have hau : auKm ≠ 0 := by unfold auKm; norm_num
  have hm0 : ‖moon‖ ≠ 0 := norm_ne_zero_iff.mpr hm
  have hd0 : 0 < ‖sun - moon‖ := lt_of_lt_of_le (by norm_num) hd
  have hcos : ‖moon‖ * ‖sun‖ * Real.cos (angle moon sun) = inner ℝ moon sun := by
    rw [mul_comm, cos_angle_mul_norm_mul_norm]
  have hdist : ‖sun - moon‖ ^ 2 = ‖sun‖ ^ 2 - 2 * inner ℝ sun moon + ‖moon‖ ^ 2 := norm_sub_sq_real sun moon
  rw [real_inner_comm] at hdist
  unfold phaseAngle
  dsimp only
  rw [mul_div_cancel_right₀ _ hau]
  have e1 : ‖sun‖ * ‖sun‖ + ‖moon‖ * ‖moon‖ - 2 * ‖sun‖ * ‖moon‖ * Real.cos (angle moon sun) = ‖sun - moon‖ ^ 2 := by
    rw [hdist]
    linear_combination (-2) * hcos
  rw [e1, max_eq_left (sq_nonneg _), Real.sqrt_sq (norm_nonneg _), if_neg (not_lt.mpr hd)]
  have e2 : (‖sun - moon‖ * ‖sun - moon‖ + ‖moon‖ * ‖moon‖ - ‖sun‖ * ‖sun‖) / (2 * ‖sun - moon‖ * ‖moon‖) =
      inner ℝ (0 - moon) (sun - moon) / (‖0 - moon‖ * ‖sun - moon‖) := by
    rw [zero_sub, norm_neg, inner_neg_left, inner_sub_right, real_inner_self_eq_norm_sq]
    have hdist' : inner ℝ moon sun = (‖sun‖ ^ 2 + ‖moon‖ ^ 2 - ‖sun - moon‖ ^ 2) / 2 := by linarith
    rw [hdist']
    field_simp
    ring
  rw [e2]
  have hle := abs_le.mp (abs_real_inner_div_norm_mul_norm_le_one (0 - moon) (sun - moon))
  rw [min_eq_left hle.2, max_eq_right hle.1]
  rfl

/-- Geocentric geometry from spherical positions: the phase angle and the illuminated fraction are those of
the triangle; the elongation is the difference of longitudes reduced to one turn. -/
theorem geocentric_correct (moonLon moonLat sunLon : ℝ) {rm rs : ℝ} (hm : 0 < rm) (hs : 0 < rs)
    (hd : 1 / 10 ^ 15 ≤ ‖rs • sky sunLon 0 - rm • sky moonLon moonLat‖) :
    (geocentric moonLon moonLat (rm * auKm) sunLon rs).phase =
      angle (0 - rm • sky moonLon moonLat) (rs • sky sunLon 0 - rm • sky moonLon moonLat) ∧
    (geocentric moonLon moonLat (rm * auKm) sunLon rs).fraction =
      (1 + Real.cos (angle (0 - rm • sky moonLon moonLat) (rs • sky sunLon 0 - rm • sky moonLon moonLat))) / 2 ∧
    ∃ k : ℤ, (geocentric moonLon moonLat (rm * auKm) sunLon rs).elongation = moonLon - sunLon - k * (2 * Real.pi) := by
  have hne : rm • sky moonLon moonLat ≠ 0 := by
    rw [← norm_ne_zero_iff, norm_smul, sky_norm, mul_one, Real.norm_eq_abs, abs_of_pos hm]
    exact hm.ne'
  have key := phase_angle_correct hne hd
  rw [angle_smul_left_of_pos _ _ hm, angle_smul_right_of_pos _ _ hs, angle_comm, ← great_circle_angle, norm_smul, norm_smul, sky_norm, sky_norm, mul_one,
    mul_one, Real.norm_eq_abs, Real.norm_eq_abs, abs_of_pos hm, abs_of_pos hs] at key
  refine ⟨key, ?_, remTau_eq _⟩
  unfold geocentric
  dsimp only
  rw [key]

/-- Ranges of the geocentric geometry, for all inputs. -/
theorem geocentric_range (moonLon moonLat moonKm sunLon sunAu : ℝ) :
    0 ≤ (geocentric moonLon moonLat moonKm sunLon sunAu).fraction ∧
    (geocentric moonLon moonLat moonKm sunLon sunAu).fraction ≤ 1 ∧
    0 ≤ (geocentric moonLon moonLat moonKm sunLon sunAu).phase ∧
    (geocentric moonLon moonLat moonKm sunLon sunAu).phase ≤ Real.pi ∧
    0 ≤ (geocentric moonLon moonLat moonKm sunLon sunAu).elongation ∧
    (geocentric moonLon moonLat moonKm sunLon sunAu).elongation < 2 * Real.pi ∧
    ((geocentric moonLon moonLat moonKm sunLon sunAu).waxing = true ↔
      0 < (geocentric moonLon moonLat moonKm sunLon sunAu).elongation ∧
      (geocentric moonLon moonLat moonKm sunLon sunAu).elongation < Real.pi) := by
  have hp : ∀ psi, 0 ≤ phaseAngle moonKm sunAu psi ∧ phaseAngle moonKm sunAu psi ≤ Real.pi := by
    intro psi
    unfold phaseAngle
    dsimp only
    split
    · exact ⟨le_rfl, Real.pi_pos.le⟩
    · exact ⟨Real.arccos_nonneg _, Real.arccos_le_pi _⟩
  unfold geocentric
  dsimp only
  refine ⟨?_, ?_, (hp _).1, (hp _).2, remTau_nonneg _, remTau_lt _, by simp⟩
  · linarith [Real.neg_one_le_cos (phaseAngle moonKm sunAu (greatCircle sunLon 0 moonLon moonLat))]
  · linarith [Real.cos_le_one (phaseAngle moonKm sunAu (greatCircle sunLon 0 moonLon moonLat))]

/-- The lit fraction grows with the separation from the Sun seen from the Earth: it is zero in front of the
Sun and one opposite to it (the Moon nearer than the Sun). -/
theorem fraction_ends {moonKm sunAu : ℝ} (hm : 0 < moonKm) (hs : moonKm / auKm + 1 / 10 ^ 15 ≤ sunAu) :
    phaseAngle moonKm sunAu 0 = Real.pi ∧ phaseAngle moonKm sunAu Real.pi = 0 := by
  have hau : 0 < auKm := by unfold auKm; norm_num
  have hr : 0 < moonKm / auKm := div_pos hm hau
  unfold phaseAngle
  dsimp only
  generalize moonKm / auKm = r at hr hs
  constructor
  · rw [Real.cos_zero]
    have e : sunAu * sunAu + r * r - 2 * sunAu * r * 1 = (sunAu - r) ^ 2 := by ring
    have hpos : (0 : ℝ) < sunAu - r := by
      have : (0 : ℝ) < 1 / 10 ^ 15 := by norm_num
      linarith
    rw [e, max_eq_left (sq_nonneg _), Real.sqrt_sq hpos.le, if_neg (by linarith)]
    have e2 : ((sunAu - r) * (sunAu - r) + r * r - sunAu * sunAu) / (2 * (sunAu - r) * r) = -1 := by
      field_simp
      ring
    rw [e2]
    norm_num
  · rw [Real.cos_pi]
    have e : sunAu * sunAu + r * r - 2 * sunAu * r * -1 = (sunAu + r) ^ 2 := by ring
    have hpos : (0 : ℝ) < sunAu := by
      have : (0 : ℝ) < 1 / 10 ^ 15 := by norm_num
      linarith
    rw [e, max_eq_left (sq_nonneg _), Real.sqrt_sq (by linarith), if_neg (by linarith)]
    have e2 : ((sunAu + r) * (sunAu + r) + r * r - sunAu * sunAu) / (2 * (sunAu + r) * r) = 1 := by
      field_simp
      ring
    rw [e2]
    norm_num

/-- Topocentric geometry: ranges. The elongation stays below a full turn unless the two directions coincide. -/
theorem topocentric_range_partial (moonRa moonDec sunRa sunDec moonKm sunAu : ℝ) :
    0 ≤ (topocentric moonRa moonDec sunRa sunDec moonKm sunAu).fraction ∧
    (topocentric moonRa moonDec sunRa sunDec moonKm sunAu).fraction ≤ 1 ∧
    0 ≤ (topocentric moonRa moonDec sunRa sunDec moonKm sunAu).elongation ∧
    (topocentric moonRa moonDec sunRa sunDec moonKm sunAu).elongation ≤ 2 * Real.pi ∧
    (sky moonRa moonDec ≠ sky sunRa sunDec →
      (topocentric moonRa moonDec sunRa sunDec moonKm sunAu).elongation < 2 * Real.pi) ∧
    Real.cos (topocentric moonRa moonDec sunRa sunDec moonKm sunAu).elongation =
      Real.cos (angle (sky moonRa moonDec) (sky sunRa sunDec)) ∧
    ((topocentric moonRa moonDec sunRa sunDec moonKm sunAu).waxing = true ↔
      0 < (topocentric moonRa moonDec sunRa sunDec moonKm sunAu).elongation ∧
      (topocentric moonRa moonDec sunRa sunDec moonKm sunAu).elongation < Real.pi) := by
  have hg := great_circle_angle moonRa moonDec sunRa sunDec
  have h0 := angle_nonneg (sky moonRa moonDec) (sky sunRa sunDec)
  have h1 := angle_le_pi (sky moonRa moonDec) (sky sunRa sunDec)
  unfold topocentric
  dsimp only
  rw [hg]
  refine ⟨?_, ?_, ?_, ?_, ?_, ?_, by simp⟩
  · linarith [Real.neg_one_le_cos (phaseAngle moonKm sunAu (angle (sky moonRa moonDec) (sky sunRa sunDec)))]
  · linarith [Real.cos_le_one (phaseAngle moonKm sunAu (angle (sky moonRa moonDec) (sky sunRa sunDec)))]
  · split <;> linarith
  · split <;> linarith [Real.pi_pos]
  · intro hne
    have hpos : 0 < angle (sky moonRa moonDec) (sky sunRa sunDec) := by
      rcases h0.lt_or_eq with h | h
      · exact h
      · exfalso
        apply hne
        have hi : inner ℝ (sky moonRa moonDec) (sky sunRa sunDec) = (1 : ℝ) := by
          have := cos_angle_mul_norm_mul_norm (sky moonRa moonDec) (sky sunRa sunDec)
          rw [← h, Real.cos_zero, sky_norm, sky_norm] at this
          linarith
        exact (inner_eq_one_iff_of_norm_eq_one (𝕜 := ℝ) (sky_norm _ _) (sky_norm _ _)).mp hi
    split <;> linarith [Real.pi_pos]
  · split
    · rfl
    · rw [Real.cos_two_pi_sub]

/-- Disagreement: the documented range `[0, 2π)` is left when Sun and Moon stand at the same point, given with
right ascensions half a turn apart (the pole). -/
theorem topocentric_full_turn : (topocentric Real.pi (Real.pi / 2) 0 (Real.pi / 2) 1 1).elongation = 2 * Real.pi := by
  have hsky : sky Real.pi (Real.pi / 2) = sky 0 (Real.pi / 2) := by
    unfold sky
    simp
  have hpi : remTau (Real.pi - 0) = Real.pi := by
    apply remTau_unique (k := 0) Real.pi_pos.le (by linarith [Real.pi_pos])
    simp
  unfold topocentric
  dsimp only
  rw [great_circle_angle, hsky, hpi, if_neg (lt_irrefl _), angle_self]
  · simp
  · rw [← norm_ne_zero_iff, sky_norm]
    exact one_ne_zero

/-! ### Principal phase events -/

/-- The difference of two angles is reduced to half a turn on either side. -/
theorem angleDiff_spec (a b : ℝ) :
    -Real.pi < angleDiff a b ∧ angleDiff a b ≤ Real.pi ∧ ∃ k : ℤ, angleDiff a b = a - b - k * (2 * Real.pi) := by
  unfold angleDiff
  dsimp only
  have h0 := remTau_nonneg (a - b)
  have h1 := remTau_lt (a - b)
  obtain ⟨k, hk⟩ := remTau_eq (a - b)
  split
  · rename_i h
    refine ⟨by linarith, by linarith, k + 1, ?_⟩
    rw [hk]; push_cast; ring
  · rename_i h
    exact ⟨by linarith [Real.pi_pos], not_lt.mp h, k, hk⟩

/-- The elongation of a principal phase: new moon, first quarter, full moon and last quarter are a quarter turn
apart. -/
noncomputable def phaseElongation : PhaseKind → ℝ
  | .newMoon => 0
  | .firstQuarter => 1 * (Real.pi / 2)
  | .fullMoon => 2 * (Real.pi / 2)
  | .lastQuarter => 3 * (Real.pi / 2)

theorem target_eq (k : PhaseKind) : phaseElongation k = k.target := by
  cases k <;> simp only [phaseElongation, PhaseKind.target] <;> ring

/-- A root finder that returns zeros. -/
def Exact (root : Event.RootFinder ℝ) : Prop :=
  ∀ lo hi flo fhi g r, root lo hi flo fhi g = some r → g r = 0

/-- Every reported principal phase lies in the window, and the elongation there is the one of the phase, up to
full turns (with a root finder that returns zeros); the events are in order of time. -/
theorem phase_events_genuine {root : Event.RootFinder ℝ} (hroot : Exact root) {fuel : Nat} {a b step : ℝ} (hstep : 0 < step)
    {elong : ℝ → ℝ} {es : List (ℝ × PhaseKind)} (h : findPhaseEvents root fuel a b step elong = some es) :
    (∀ e ∈ es, a ≤ e.1 ∧ e.1 ≤ b ∧ ∃ k : ℤ, elong e.1 = phaseElongation e.2 + k * (2 * Real.pi)) ∧
    es.Pairwise (fun x y => x.1 ≤ y.1) := by
  simp only [target_eq]
  unfold findPhaseEvents at h
  rw [Option.map_eq_some_iff] at h
  obtain ⟨raw, hraw, rfl⟩ := h
  have hk : ∀ ks raw, collectKinds root fuel a b step elong ks = some raw →
      ∀ e ∈ raw, a ≤ e.1 ∧ e.1 ≤ b ∧ ∃ k : ℤ, elong e.1 = e.2.target + k * (2 * Real.pi) := by
    intro ks
    induction ks with
    | nil =>
      intro raw hraw e he
      simp only [collectKinds, Option.some.injEq] at hraw
      rw [← hraw] at he
      simp at he
    | cons k ks ih =>
      intro raw hraw e he
      unfold collectKinds at hraw
      rw [Option.bind_eq_some_iff] at hraw
      obtain ⟨es, hes, hraw⟩ := hraw
      rw [Option.map_eq_some_iff] at hraw
      obtain ⟨rs, hrs, rfl⟩ := hraw
      rcases List.mem_append.mp he with he | he
      · unfold kindEvents at hes
        rw [Option.map_eq_some_iff] at hes
        obtain ⟨ts, hts, rfl⟩ := hes
        simp only [List.mem_map, List.mem_filter, decide_eq_true_eq] at he
        obtain ⟨t, ⟨ht, hd⟩, rfl⟩ := he
        obtain ⟨h1, h2, j, _, hr, _⟩ := Event.Props.plain_crossings_genuine root fuel a b step hstep _ 0 ts hts t ht
        have hz := hroot _ _ _ _ _ _ hr
        simp only [sub_zero] at hz
        refine ⟨h1, h2, ?_⟩
        obtain ⟨d1, d2, n, hn⟩ := angleDiff_spec (elong t) k.target
        -- the sine of the reduced difference vanishes too
        have hs : Real.sin (angleDiff (elong t) k.target) = 0 := by
          rw [hn, Real.sin_sub_int_mul_two_pi]
          exact hz
        have hlt : |angleDiff (elong t) k.target| < Real.pi := lt_of_lt_of_le hd (by linarith [Real.two_le_pi])
        have hzero := (Real.sin_eq_zero_iff_of_lt_of_lt (abs_lt.mp hlt).1 (abs_lt.mp hlt).2).mp hs
        exact ⟨n, by rw [hzero] at hn; simp only; linarith⟩
      · exact ih rs hrs e he
  refine ⟨fun e he => hk _ _ hraw e (List.mem_mergeSort.mp he), ?_⟩
  have := List.pairwise_mergeSort (le := fun x y : ℝ × PhaseKind => decide (x.1 ≤ y.1))
    (by intro x y z; simp only [decide_eq_true_eq]; exact le_trans)
    (by intro x y; simp only [Bool.or_eq_true, decide_eq_true_eq]; exact le_total _ _) raw
  exact this.imp (by intro x y; simp)

/-- A root finder that returns points with a residual of at most `eps`. -/
def Residual (eps : ℝ) (root : Event.RootFinder ℝ) : Prop :=
  ∀ lo hi flo fhi g r, root lo hi flo fhi g = some r → |g r| ≤ eps

theorem small_angle {d eps : ℝ} (hd : |d| < 1 / 2) (he : eps ≤ 1) (h : |Real.sin d| ≤ eps) : |d| ≤ Real.arcsin eps := by
  have hpi := Real.two_le_pi
  obtain ⟨h1, h2⟩ := abs_lt.mp hd
  obtain ⟨h3, h4⟩ := abs_le.mp h
  have he0 : 0 ≤ eps := (abs_nonneg _).trans h
  rw [abs_le]
  constructor
  · rw [← Real.arcsin_neg, ← Real.arcsin_sin (x := d) (by linarith) (by linarith)]
    exact Real.monotone_arcsin h3
  · rw [← Real.arcsin_sin (x := d) (by linarith) (by linarith)]
    exact Real.monotone_arcsin h4

/-- Every reported principal phase lies in the window, and the elongation there is the one of the phase, up to
full turns and the arc sine of the root finder's residual; the alias half a turn away is never reported. -/
theorem phase_events_residual {eps : ℝ} (he : eps ≤ 1) {root : Event.RootFinder ℝ} (hroot : Residual eps root) {fuel : Nat}
    {a b step : ℝ} (hstep : 0 < step) {elong : ℝ → ℝ} {es : List (ℝ × PhaseKind)}
    (h : findPhaseEvents root fuel a b step elong = some es) :
    ∀ e ∈ es, a ≤ e.1 ∧ e.1 ≤ b ∧ ∃ k : ℤ, |elong e.1 - phaseElongation e.2 - k * (2 * Real.pi)| ≤ Real.arcsin eps := by
  simp only [target_eq]
  unfold findPhaseEvents at h
  rw [Option.map_eq_some_iff] at h
  obtain ⟨raw, hraw, rfl⟩ := h
  have hk : ∀ ks raw, collectKinds root fuel a b step elong ks = some raw →
      ∀ e ∈ raw, a ≤ e.1 ∧ e.1 ≤ b ∧ ∃ k : ℤ, |elong e.1 - e.2.target - k * (2 * Real.pi)| ≤ Real.arcsin eps := by
    intro ks
    induction ks with
    | nil =>
      intro raw hraw e he
      simp only [collectKinds, Option.some.injEq] at hraw
      rw [← hraw] at he
      simp at he
    | cons k ks ih =>
      intro raw hraw e hmem
      unfold collectKinds at hraw
      rw [Option.bind_eq_some_iff] at hraw
      obtain ⟨es, hes, hraw⟩ := hraw
      rw [Option.map_eq_some_iff] at hraw
      obtain ⟨rs, hrs, rfl⟩ := hraw
      rcases List.mem_append.mp hmem with hmem | hmem
      · unfold kindEvents at hes
        rw [Option.map_eq_some_iff] at hes
        obtain ⟨ts, hts, rfl⟩ := hes
        rw [List.mem_map] at hmem
        obtain ⟨t, ht, rfl⟩ := hmem
        rw [List.mem_filter, decide_eq_true_eq] at ht
        obtain ⟨h1, h2, j, _, hr, _⟩ := Event.Props.plain_crossings_genuine root fuel a b step hstep _ 0 ts hts _ ht.1
        have hz := hroot _ _ _ _ _ _ hr
        simp only [sub_zero] at hz
        refine ⟨h1, h2, ?_⟩
        obtain ⟨_, _, n, hn⟩ := angleDiff_spec (elong t) k.target
        refine ⟨n, ?_⟩
        rw [← hn]
        apply small_angle ht.2 he
        rw [hn, Real.sin_sub_int_mul_two_pi]
        exact hz
      · exact ih rs hrs e hmem
  intro e he
  exact hk _ _ hraw e (List.mem_mergeSort.mp he)

/-- Completeness: if the (continuous) elongation passes a principal phase within a grid cell, moving less than
half a turn, and the root found there is less than half a radian from the phase, the event is reported. -/
theorem phase_event_found {root : Event.RootFinder ℝ} {fuel : Nat} {a b step : ℝ} (hstep : 0 < step) {elong true' : ℝ → ℝ}
    (htrue : ∀ t, ∃ k : ℤ, elong t = true' t + k * (2 * Real.pi))
    {es : List (ℝ × PhaseKind)} (h : findPhaseEvents root fuel a b step elong = some es) (kind : PhaseKind) (n : ℤ) (j : ℕ)
    (hj : Event.Spec.cellLo a step j < b)
    (hlo : true' (Event.Spec.cellLo a step j) < phaseElongation kind + n * (2 * Real.pi))
    (hhi : phaseElongation kind + n * (2 * Real.pi) < true' (Event.Spec.cellHi a b step j))
    (hslow : true' (Event.Spec.cellHi a b step j) - true' (Event.Spec.cellLo a step j) < Real.pi) (r : ℝ)
    (hr : root (Event.Spec.cellLo a step j) (Event.Spec.cellHi a b step j)
      (Real.sin (elong (Event.Spec.cellLo a step j) - phaseElongation kind)) (Real.sin (elong (Event.Spec.cellHi a b step j) - phaseElongation kind))
      (fun t => Real.sin (elong t - phaseElongation kind)) = some r)
    (hin : Event.Spec.cellLo a step j ≤ r ∧ r ≤ Event.Spec.cellHi a b step j)
    (hnear : |true' r - (phaseElongation kind + n * (2 * Real.pi))| < 1 / 2) : (r, kind) ∈ es := by
  simp only [target_eq] at hlo hhi hr hnear
  have hred : ∀ t, Real.sin (elong t - kind.target) = Real.sin (true' t - (kind.target + n * (2 * Real.pi))) := by
    intro t
    obtain ⟨k, hk⟩ := htrue t
    rw [hk]
    have : true' t + k * (2 * Real.pi) - kind.target = true' t - (kind.target + n * (2 * Real.pi)) + (k + n : ℤ) * (2 * Real.pi) := by
      push_cast; ring
    rw [this, Real.sin_add_int_mul_two_pi]
  have hdiff : |angleDiff (elong r) kind.target| < 1 / 2 := by
    obtain ⟨d1, d2, m, hm⟩ := angleDiff_spec (elong r) kind.target
    obtain ⟨k, hk⟩ := htrue r
    have hn := abs_lt.mp hnear
    have hpi := Real.two_le_pi
    have e : angleDiff (elong r) kind.target = (true' r - (kind.target + n * (2 * Real.pi))) + ((k + n - m : ℤ) : ℝ) * (2 * Real.pi) := by
      rw [hm, hk]; push_cast; ring
    have q1 : ((k + n - m : ℤ) : ℝ) < (1 : ℤ) := by
      by_contra hc
      rw [not_lt, Int.cast_one] at hc
      have := mul_le_mul_of_nonneg_right hc (show 0 ≤ 2 * Real.pi by linarith)
      linarith
    have q2 : ((-1 : ℤ) : ℝ) < ((k + n - m : ℤ) : ℝ) := by
      by_contra hc
      rw [not_lt] at hc
      push_cast at hc
      have := mul_le_mul_of_nonneg_right hc (show 0 ≤ 2 * Real.pi by linarith)
      push_cast at e
      linarith
    rw [Int.cast_lt] at q1 q2
    have : k + n - m = 0 := by omega
    rw [e, this]
    simpa using hnear
  unfold findPhaseEvents at h
  rw [Option.map_eq_some_iff] at h
  obtain ⟨raw, hraw, rfl⟩ := h
  rw [List.mem_mergeSort]
  have gen : ∀ ks raw, collectKinds root fuel a b step elong ks = some raw → kind ∈ ks → (r, kind) ∈ raw := by
    intro ks
    induction ks with
    | nil => intro raw _ hk; simp at hk
    | cons q ks ih =>
      intro raw hraw hk
      unfold collectKinds at hraw
      rw [Option.bind_eq_some_iff] at hraw
      obtain ⟨es, hes, hraw⟩ := hraw
      rw [Option.map_eq_some_iff] at hraw
      obtain ⟨rs, hrs, rfl⟩ := hraw
      rw [List.mem_append]
      rcases List.mem_cons.mp hk with rfl | hk
      · left
        unfold kindEvents at hes
        rw [Option.map_eq_some_iff] at hes
        obtain ⟨ts, hts, rfl⟩ := hes
        rw [List.mem_map]
        refine ⟨r, ?_, rfl⟩
        rw [List.mem_filter, decide_eq_true_eq]
        refine ⟨?_, hdiff⟩
        obtain ⟨dl, hdl⟩ : ∃ dl, Event.findDirectedCrossings root fuel a b step (fun t => Real.sin (elong t - kind.target)) 0 = some dl := by
          have h' := hts
          rw [Event.findCrossings_raw] at h'
          rw [Event.findDirected_raw]
          cases hc : Event.gridCells b step fuel a with
          | none => rw [hc] at h'; simp at h'
          | some cs => exact ⟨_, rfl⟩
        refine (Event.Props.no_sampled_sign_change_missed_partial root fuel a b step hstep _ 0 ts dl.1 dl.2 hts hdl j hj ?_ r ?_ hin).1
        · left
          simp only [sub_zero, hred]
          constructor
          · exact Real.sin_neg_of_neg_of_neg_pi_lt (by linarith) (by linarith)
          · exact Real.sin_pos_of_pos_of_lt_pi (by linarith) (by linarith)
        · simp only [sub_zero]
          exact hr
      · exact Or.inr (ih rs hrs hk)
  exact gen _ _ hraw (by cases kind <;> simp [PhaseKind.all])

/-- A root finder that knows one zero. -/
noncomputable def zeroRoot : Event.RootFinder ℝ := fun _ _ _ _ g => if g 0 = 0 then some 0 else none

theorem zeroRoot_exact : Exact zeroRoot := by
  intro lo hi flo fhi g r h
  unfold zeroRoot at h
  split at h
  · cases h; assumption
  · simp at h

/-- A case with its hypotheses met: the elongation grows from -1 to 1 in one step, and the new moon between is
reported, and nothing else. -/
theorem new_moon_example : findPhaseEvents zeroRoot 2 (-1) 1 2 (fun t => t) = some [(0, .newMoon)] := by
  have hpi := Real.two_le_pi
  have s1 : 0 < Real.sin 1 := Real.sin_pos_of_pos_of_lt_pi (by norm_num) (by linarith)
  have c1 : 0 < Real.cos 1 := Real.cos_pos_of_mem_Ioo ⟨by linarith, by linarith [Real.pi_gt_three]⟩
  have one : ∀ g : ℝ → ℝ, Event.findCrossings zeroRoot 2 (-1) 1 2 g 0 =
      some (if ((g (-1) < 0 ∧ 0 < g 1) ∨ (0 < g (-1) ∧ g 1 < 0)) ∧ g 0 = 0 then [0] else []) := by
    intro g
    have hn : Event.nextTime (1 : ℝ) 2 (-1) = 1 := by norm_num [Event.nextTime]
    unfold Event.findCrossings
    dsimp only
    rw [Event.findCrossingsLoop, if_pos (by norm_num)]
    dsimp only
    simp only [hn, sub_zero]
    rw [Event.findCrossingsLoop, if_neg (by norm_num)]
    unfold zeroRoot
    by_cases hz : g 0 = 0
    · by_cases hs : (g (-1) < 0 ∧ 0 < g 1) ∨ (0 < g (-1) ∧ g 1 < 0)
      · rw [if_pos hs, if_pos hz, if_pos ⟨hs, hz⟩]
        norm_num
      · rw [if_neg hs, if_neg (fun c => hs c.1)]
    · simp [hz]
  have r0 : remTau 0 = 0 := remTau_unique (k := 0) le_rfl tau_pos (by simp)
  have rp : remTau (0 - Real.pi) = Real.pi := remTau_unique (k := -1) (by linarith) (by linarith) (by push_cast; ring)
  have d0 : angleDiff 0 0 = 0 := by
    unfold angleDiff
    rw [sub_zero, r0]
    simp [Real.pi_pos.le]
  have dp : angleDiff 0 Real.pi = Real.pi := by
    unfold angleDiff
    rw [rp]
    simp
  unfold findPhaseEvents PhaseKind.all collectKinds collectKinds collectKinds collectKinds collectKinds kindEvents
  simp only [one, PhaseKind.target, sub_zero]
  have e2 : ∀ x : ℝ, Real.sin (x - Real.pi / 2) = -Real.cos x := Real.sin_sub_pi_div_two
  have e3 : ∀ x : ℝ, Real.sin (x - Real.pi) = -Real.sin x := Real.sin_sub_pi
  have e4 : ∀ x : ℝ, Real.sin (x - 3 * Real.pi / 2) = Real.cos x := by
    intro x
    have : x - 3 * Real.pi / 2 = x + Real.pi / 2 - 2 * Real.pi := by ring
    rw [this, Real.sin_sub_two_pi, Real.sin_add_pi_div_two]
  simp only [e2, e3, e4, Real.sin_neg, Real.cos_neg, Real.cos_zero, Real.sin_zero]
  have a1 : ((-Real.sin 1 < 0 ∧ 0 < Real.sin 1) ∨ (0 < -Real.sin 1 ∧ Real.sin 1 < 0)) ∧ True :=
    ⟨Or.inl ⟨by linarith, s1⟩, trivial⟩
  have a3 : ((- -Real.sin 1 < 0 ∧ 0 < -Real.sin 1) ∨ (0 < - -Real.sin 1 ∧ -Real.sin 1 < 0)) ∧ (-0 : ℝ) = 0 :=
    ⟨Or.inr ⟨by linarith, by linarith⟩, neg_zero⟩
  have hp : ¬ |Real.pi| < 1 / 2 := by rw [abs_of_pos Real.pi_pos]; linarith
  rw [if_pos a1, if_pos a3, if_neg (fun c => by norm_num at c), if_neg (fun c => by norm_num at c)]
  simp only [List.filter_cons, List.filter_nil, d0, dp, hp, abs_zero, decide_false, show ((0 : ℝ) < 1 / 2) by norm_num,
    decide_true, if_true, Bool.false_eq_true, if_false, Option.map_some, Option.bind_some, List.map_cons, List.map_nil,
    List.nil_append, List.append_nil, List.mergeSort_singleton]

/-- The sample loop: ends for a positive step and then holds exactly the times `start + i * step` up to the
end. -/
theorem sample_times {stop step : ℝ} (hs : 0 < step) (start : ℝ) :
    ∃ n, ∀ fuel, n ≤ fuel → ∃ l, sampleTimes stop step fuel start = some l ∧
      ∀ i : Nat, l[i]? = if start + i * step ≤ stop then some (start + i * step) else none := by
  obtain ⟨n, hn⟩ := exists_nat_gt ((stop - start) / step)
  rw [div_lt_iff₀ hs] at hn
  refine ⟨n + 1, ?_⟩
  have gen : ∀ (m : Nat) (t : ℝ), stop - t < m * step → ∀ fuel, m + 1 ≤ fuel →
      ∃ l, sampleTimes stop step fuel t = some l ∧
        ∀ i : Nat, l[i]? = if t + i * step ≤ stop then some (t + i * step) else none := by
    intro m
    induction m with
    | zero =>
      intro t ht fuel hf
      obtain ⟨g, rfl⟩ : ∃ g, fuel = g + 1 := ⟨fuel - 1, by omega⟩
      rw [sampleTimes]
      simp only [Nat.cast_zero, zero_mul] at ht
      rw [if_neg (by linarith)]
      refine ⟨[], rfl, fun i => ?_⟩
      have : 0 ≤ (i : ℝ) * step := by positivity
      rw [if_neg (by linarith)]
      simp
    | succ m ih =>
      intro t ht fuel hf
      obtain ⟨g, rfl⟩ : ∃ g, fuel = g + 1 := ⟨fuel - 1, by omega⟩
      rw [sampleTimes]
      by_cases h : t ≤ stop
      · obtain ⟨l, hl, hi⟩ := ih (t + step) (by push_cast at ht; linarith) g (by omega)
        rw [if_pos h, hl]
        refine ⟨t :: l, rfl, fun i => ?_⟩
        cases i with
        | zero => simp [h]
        | succ i =>
          rw [List.getElem?_cons_succ, hi i]
          have : t + step + i * step = t + ((i + 1 : Nat) : ℝ) * step := by push_cast; ring
          rw [this]
      · rw [if_neg h]
        refine ⟨[], rfl, fun i => ?_⟩
        have : 0 ≤ (i : ℝ) * step := by positivity
        rw [if_neg (by push Not at h; linarith)]
        simp
  exact gen n start (by linarith)

/-- Disagreement: a zero or negative step never ends. -/
theorem sample_never_finishes {start stop step : ℝ} (hs : step ≤ 0) (h : start ≤ stop) (fuel : Nat) :
    sampleTimes stop step fuel start = none := by
  induction fuel generalizing start with
  | zero => rfl
  | succ n ih =>
    rw [sampleTimes, if_pos h, ih (by linarith)]
    rfl

end Verif.Sky.Props
