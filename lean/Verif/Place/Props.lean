import Verif.Place.Model
import Verif.Place.Spec
import Verif.Earth.Props
import Verif.Horizon.Props

/-!
# Fixed frames, the ecliptic of date and the place of the Sun: theorems
-/

namespace Verif.Place.Props

open Verif.Earth
open Verif.Earth.Spec (Proper)
open Verif.Earth.Props
open Verif.Horizon (len toCart polarOf azimuthOf cart_angles unit_angles unit_ne len_pos len_cart
  len_nonneg len_zero)
open Verif.Apparent (wrap cos_wrap sin_wrap atan2_polar)
open Verif.Place.Spec
open Matrix

/-! ## Lengths -/

theorem dot_proper {m : M3} (h : mᵀ * m = 1) (v w : V3) : m.mulVec v ⬝ᵥ m.mulVec w = v ⬝ᵥ w := by
  rw [Matrix.dotProduct_mulVec, Matrix.vecMul_mulVec, ← Matrix.dotProduct_mulVec, h,
    Matrix.one_mulVec]

theorem dot3 (v w : V3) : v ⬝ᵥ w = v 0 * w 0 + v 1 * w 1 + v 2 * w 2 := by
  simp [dotProduct, Fin.sum_univ_three]

theorem len_dot (v : V3) : len v = Real.sqrt (v ⬝ᵥ v) := by
  rw [dot3, len]; congr 1; ring

theorem len_proper {m : M3} (h : mᵀ * m = 1) (v : V3) : len (m.mulVec v) = len v := by
  rw [len_dot, len_dot, dot_proper h]

theorem cancel {m : M3} (h : mᵀ * m = 1) (v : V3) : mᵀ.mulVec (m.mulVec v) = v := by
  rw [Matrix.mulVec_mulVec, h, Matrix.one_mulVec]

theorem cancel' {m : M3} (h : Proper m) (v : V3) : m.mulVec (mᵀ.mulVec v) = v := by
  rw [Matrix.mulVec_mulVec, proper_right h, Matrix.one_mulVec]

/-! ## Fixed frames -/

/-- The frame of the network a fixed frame stands for. -/
def net : Fixed → Frame
  | .icrs => .icrs
  | .equatorial => .meanJ2000
  | .ecliptic => .eclipticJ2000

theorem steps_position (a b : Fixed) (v : V3) : stepsTo a b v = positionTo a b v := by
  cases a <;> cases b <;> simp only [stepsTo, positionTo, icrsToEcl, eclToIcrs]
  · rw [Matrix.mulVec_mulVec]
  · rw [Matrix.mulVec_mulVec, Matrix.transpose_mul]
    congr 2
    simp [eclToEq, eqToEcl, rx_transpose]

theorem kinds_agree (k : Kind) (a b : Fixed) (v : V3) : toFrame k a b v = positionTo a b v := by
  cases k
  · rfl
  · exact steps_position a b v
  · exact steps_position a b v

/-- **C192.** The conversion of a position, direction or velocity between the frames that need no
date is the rotation the dated network returns for the same pair, at every date and whatever its
models: the two interfaces never disagree. -/
theorem fixed_is_network (k : Kind) (a b : Fixed) (c : Ctx) (jd : ℝ) :
    ∃ m, rotation c jd (net a) (net b) = some m ∧ Proper m ∧ ∀ v, toFrame k a b v = m.mulVec v := by
  cases a <;> cases b
  · exact ⟨1, rfl, proper_one, fun v => by rw [kinds_agree]; simp [positionTo]⟩
  · exact ⟨Earth.bias, rfl, proper_bias, fun v => by rw [kinds_agree]; rfl⟩
  · exact ⟨_, rfl, Proper.mul (proper_rx _) proper_bias, fun v => by rw [kinds_agree]; rfl⟩
  · exact ⟨_, rfl, proper_transpose proper_bias, fun v => by rw [kinds_agree]; rfl⟩
  · exact ⟨1, rfl, proper_one, fun v => by rw [kinds_agree]; simp [positionTo]⟩
  · exact ⟨_, rfl, proper_rx _, fun v => by rw [kinds_agree]; rfl⟩
  · exact ⟨_, rfl, proper_transpose (Proper.mul (proper_rx _) proper_bias),
      fun v => by rw [kinds_agree]; rfl⟩
  · exact ⟨_, rfl, proper_rx _, fun v => by rw [kinds_agree]; rfl⟩
  · exact ⟨1, rfl, proper_one, fun v => by rw [kinds_agree]; simp [positionTo]⟩

/-- **C192.** Converting through a third frame gives the direct conversion, for every mixture of
kinds; in particular every conversion is undone by the opposite one. -/
theorem fixed_compose (k k' k'' : Kind) (a b d : Fixed) (v : V3) :
    toFrame k b d (toFrame k' a b v) = toFrame k'' a d v := by
  simp only [kinds_agree]
  have hb := cancel proper_bias.1
  have hb' := cancel' proper_bias
  have ho : ∀ w : V3, (rx j2000Obliquity).mulVec ((rx (-j2000Obliquity)).mulVec w) = w := fun w => by
    rw [Matrix.mulVec_mulVec, ← rx_add, add_neg_cancel, rx_zero, Matrix.one_mulVec]
  have ho' : ∀ w : V3, (rx (-j2000Obliquity)).mulVec ((rx j2000Obliquity).mulVec w) = w := fun w => by
    rw [Matrix.mulVec_mulVec, ← rx_add, neg_add_cancel, rx_zero, Matrix.one_mulVec]
  cases a <;> cases b <;> cases d <;>
    simp [positionTo, icrsToEcl, eclToIcrs, eqToEcl, eclToEq, biasTo, biasFrom, hb, hb', ho, ho',
      ← Matrix.mulVec_mulVec, Matrix.transpose_mul, rx_transpose]

theorem vector_ofVector (v : V3) : (Sph.ofVector v).vector = v := by
  by_cases h : v = 0
  · subst h
    simp [Sph.vector, Sph.ofVector, len]
  · show len v • toCart (polarOf v) (azimuthOf v) = v
    rw [cart_angles h, smul_smul, mul_one_div_cancel (len_pos h).ne', one_smul]

theorem len_vector (s : Sph) : len s.vector = |s.distance| := by
  have h := len_cart s.polar s.azimuth
  rw [len_dot, Sph.vector, dotProduct_smul, smul_dotProduct, smul_eq_mul, smul_eq_mul, ← mul_assoc,
    Real.sqrt_mul (mul_self_nonneg _), Real.sqrt_mul_self_eq_abs, ← len_dot, h, mul_one]

theorem len_position (a b : Fixed) (v : V3) : len (positionTo a b v) = len v := by
  obtain ⟨m, -, hp, hm⟩ := fixed_is_network .position a b ⟨fun _ => ⟨0, 0, 0⟩, fun _ => Eop.zero,
    fun _ => none, fun _ => 0, fun _ => 0, fun _ => none, 1, 1⟩ 0
  rw [show positionTo a b v = m.mulVec v from hm v, len_proper hp.1]

/-- **C192.** For spherical positions and directions the same: the vector is turned as the Cartesian
one is, and the distance is kept. -/
theorem fixed_spherical (a b : Fixed) (s : Sph) (p : ℝ × ℝ) :
    (sphericalTo a b s).vector = toFrame .position a b s.vector
      ∧ (sphericalTo a b s).distance = |s.distance|
      ∧ toCart (sphericalDirectionTo a b p).1 (sphericalDirectionTo a b p).2
        = toFrame .direction a b (toCart p.1 p.2) := by
  refine ⟨vector_ofVector _, ?_, ?_⟩
  · show len (positionTo a b s.vector) = _
    rw [len_position, len_vector]
  · show toCart (polarOf _) (azimuthOf _) = _
    apply unit_angles
    rw [steps_position, len_position, len_cart]

/-! ## The ecliptic of date -/

/-- The detour over angles loses nothing, the poles included. -/
theorem through_exact {m : M3} (h : mᵀ * m = 1) {v : V3} (hv : len v = 1) :
    through m v = m.mulVec v := by
  have hl : len (m.mulVec v) = 1 := by rw [len_proper h, hv]
  have e := unit_angles hl
  have hz : (m.mulVec v) 2 = Real.sin (polarOf (m.mulVec v)) := (congrFun e 2).symm
  unfold through
  rw [unit_angles hv]
  show toCart (Real.arcsin (max (-1) (min 1 (m.mulVec v 2)))) (azimuthOf (m.mulVec v)) = _
  have : max (-1) (min 1 (m.mulVec v 2)) = m.mulVec v 2 := by
    rw [min_eq_right (by rw [hz]; exact Real.sin_le_one _),
      max_eq_right (by rw [hz]; exact Real.neg_one_le_sin _)]
  rw [this]
  have hp : Real.arcsin (m.mulVec v 2) = polarOf (m.mulVec v) := by
    show _ = Real.arcsin (_ / len _)
    rw [hl, div_one]
  rw [hp, e]

theorem unit_len {v : V3} : UnitLength v ↔ len v = 1 := by
  unfold UnitLength len
  constructor
  · intro h; rw [h, Real.sqrt_one]
  · intro h
    have := Real.sqrt_eq_one.mp h
    exact this

theorem gcrs_proper (jd : ℝ) : Proper (gcrsToEclipticOfDate jd) :=
  Proper.mul (proper_rx _) (proper_precession _)

/-- **C193.** Ecliptic coordinates of date follow from right ascension and declination of date by
the classical formulas with the mean obliquity, and back. -/
theorem mean_to_ecliptic (jd : ℝ) {v w : V3} (hv : UnitLength v) (hw : UnitLength w) :
    EclipticOf (meanObliquity jd) v (meanToEcliptic jd v)
      ∧ EclipticOf (meanObliquity jd) (eclipticToMean jd w) w := by
  rw [unit_len] at hv hw
  have r : Proper (meanEquatorialToEclipticOfDate jd) := proper_rx _
  unfold meanToEcliptic eclipticToMean
  rw [through_exact r.1 hv, through_exact (proper_transpose r).1 hw]
  have hs := Real.sin_sq_add_cos_sq (meanObliquity jd)
  unfold meanEquatorialToEclipticOfDate EclipticOf
  rw [rx_transpose, neg_neg]
  refine ⟨⟨?_, ?_, ?_⟩, ?_, ?_, ?_⟩ <;>
    simp [rx, Matrix.mulVec, dotProduct, Fin.sum_univ_three]
  · ring
  · ring
  · linear_combination -(w 1) * hs
  · linear_combination -(w 2) * hs

/-- **C193.** From ICRS and from GCRS the result is that of precessing to the mean equator of date
first; every conversion keeps unit length and all angles, and is undone by its opposite. -/
theorem of_date_paths (jd : ℝ) {v w : V3} (hv : UnitLength v) (hw : UnitLength w) :
    icrsToEcliptic jd v = meanToEcliptic jd ((precession jd).mulVec v)
      ∧ gcrsToEcliptic jd v = icrsToEcliptic jd v
      ∧ eclipticToIcrs jd (icrsToEcliptic jd v) = v
      ∧ icrsToEcliptic jd (eclipticToIcrs jd w) = w
      ∧ eclipticToMean jd (meanToEcliptic jd v) = v
      ∧ meanToEcliptic jd (eclipticToMean jd w) = w
      ∧ UnitLength (icrsToEcliptic jd v) ∧ UnitLength (eclipticToIcrs jd w)
      ∧ UnitLength (meanToEcliptic jd v) ∧ UnitLength (eclipticToMean jd w)
      ∧ icrsToEcliptic jd v ⬝ᵥ w = v ⬝ᵥ eclipticToIcrs jd w := by
  simp only [unit_len] at *
  have g := gcrs_proper jd
  have g' := proper_transpose g
  have r : Proper (meanEquatorialToEclipticOfDate jd) := proper_rx _
  have r' := proper_transpose r
  have hpv : len ((precession jd).mulVec v) = 1 := by rw [len_proper (proper_precession jd).1, hv]
  have e1 : icrsToEcliptic jd v = (gcrsToEclipticOfDate jd).mulVec v := through_exact g.1 hv
  have e2 : eclipticToIcrs jd w = (gcrsToEclipticOfDate jd)ᵀ.mulVec w := through_exact g'.1 hw
  have e3 : meanToEcliptic jd v = (meanEquatorialToEclipticOfDate jd).mulVec v :=
    through_exact r.1 hv
  have e4 : eclipticToMean jd w = (meanEquatorialToEclipticOfDate jd)ᵀ.mulVec w :=
    through_exact r'.1 hw
  have l1 : len (icrsToEcliptic jd v) = 1 := by rw [e1, len_proper g.1, hv]
  have l2 : len (eclipticToIcrs jd w) = 1 := by rw [e2, len_proper g'.1, hw]
  have l3 : len (meanToEcliptic jd v) = 1 := by rw [e3, len_proper r.1, hv]
  have l4 : len (eclipticToMean jd w) = 1 := by rw [e4, len_proper r'.1, hw]
  refine ⟨?_, rfl, ?_, ?_, ?_, ?_, l1, l2, l3, l4, ?_⟩
  · rw [e1]
    unfold meanToEcliptic
    rw [through_exact r.1 hpv, Matrix.mulVec_mulVec]
    rfl
  · show through _ (icrsToEcliptic jd v) = v
    rw [through_exact g'.1 l1, e1, cancel g.1]
  · show through _ (eclipticToIcrs jd w) = w
    rw [through_exact g.1 l2, e2, cancel' g]
  · show through _ (meanToEcliptic jd v) = v
    rw [through_exact r'.1 l3, e3, cancel r.1]
  · show through _ (eclipticToMean jd w) = w
    rw [through_exact r.1 l4, e4, cancel' r]
  · rw [e1, e2, Matrix.dotProduct_mulVec, Matrix.vecMul_transpose]

/-- **C193**, a case of the hypotheses with a non-trivial value: the pole of the equator lies at
ecliptic latitude 90° − ε and longitude 90°. -/
example (jd : ℝ) : UnitLength ![0, 0, 1]
    ∧ meanToEcliptic jd ![0, 0, 1] = ![0, Real.sin (meanObliquity jd), Real.cos (meanObliquity jd)] := by
  have hu : UnitLength ![0, 0, 1] := by simp [UnitLength]
  obtain ⟨⟨h0, h1, h2⟩, -⟩ := mean_to_ecliptic jd hu hu
  refine ⟨hu, ?_⟩
  funext i
  fin_cases i
  · simpa using h0
  · simpa using h1
  · simpa using h2

theorem rz_advance (t : ℝ) (v : V3) : (rz t).mulVec v = advance t v := by
  funext i
  fin_cases i <;> simp [rz, advance, Matrix.mulVec, dotProduct, Fin.sum_univ_three] <;> ring

/-- **C194.** The coordinates on the *true* ecliptic and equinox of date — the frame the result is
labelled with — are those returned with the longitude advanced by the nutation in longitude. -/
theorem true_ecliptic (jd : ℝ) (n : Nut) (h : n.meanObliquity = meanObliquity jd) {v : V3}
    (hv : UnitLength v) :
    (gcrsToTrueEclipticOfDate n jd).mulVec v = advance n.dpsi (icrsToEcliptic jd v) := by
  rw [unit_len] at hv
  unfold icrsToEcliptic
  rw [through_exact (gcrs_proper jd).1 hv, ← rz_advance, Matrix.mulVec_mulVec,
    ecliptic_nutation jd n h]

theorem advance_fixed {t : ℝ} {v : V3} (h : advance t v = v) : Real.cos t = 1 ∨ (v 0 = 0 ∧ v 1 = 0) := by
  have h0 : v 0 * Real.cos t - v 1 * Real.sin t = v 0 := congrFun h 0
  have h1 : v 0 * Real.sin t + v 1 * Real.cos t = v 1 := congrFun h 1
  have hs := Real.sin_sq_add_cos_sq t
  by_cases hc : Real.cos t = 1
  · exact .inl hc
  · right
    have hd : 0 < 1 - Real.cos t := by
      have := Real.cos_le_one t
      rcases this.lt_or_eq with h | h
      · linarith
      · exact absurd h hc
    have e : (v 0 ^ 2 + v 1 ^ 2) * (1 - Real.cos t) = 0 := by
      linear_combination -(v 0) * h0 - v 1 * h1
    have e' : v 0 ^ 2 + v 1 ^ 2 = 0 := (mul_eq_zero.mp e).resolve_right hd.ne'
    constructor <;> nlinarith [sq_nonneg (v 0), sq_nonneg (v 1)]

/-- **C194 (finding).** Whenever the nutation in longitude is not zero, every direction off the poles
of the ecliptic gets coordinates that are not those of the frame named in the result's type. -/
theorem true_label_wrong (jd : ℝ) (n : Nut) (h : n.meanObliquity = meanObliquity jd) {v : V3}
    (hv : UnitLength v) (hp : (icrsToEcliptic jd v) 2 ^ 2 ≠ 1) (h0 : n.dpsi ≠ 0)
    (h1 : |n.dpsi| < 2 * Real.pi) :
    icrsToEcliptic jd v ≠ (gcrsToTrueEclipticOfDate n jd).mulVec v := by
  rw [true_ecliptic jd n h hv]
  intro e
  have hu : UnitLength (icrsToEcliptic jd v) := (of_date_paths jd hv hv).2.2.2.2.2.2.1
  rcases advance_fixed e.symm with hc | ⟨ha, hb⟩
  · rw [abs_lt] at h1
    rcases (Real.cos_eq_one_iff_of_lt_of_lt (by linarith) h1.2).mp hc with h
    exact h0 h
  · apply hp
    unfold UnitLength at hu
    rw [ha, hb] at hu
    linarith

/-! ## The Sun -/

theorem geocentric_eq (sun earth : V3) : geocentric sun earth = sun - earth := by
  funext i; simp [geocentric]; ring

/-- **C195.** The apparent place of the Sun is the direction from the Earth to the Sun, turned from
the ecliptic of J2000 to its equator and from there by bias, precession and nutation; its distance
is that of the two bodies.  Seen from the surface the observer's position is subtracted first, and
for an observer at the geocentre nothing changes. -/
theorem sun_place (jd : ℝ) (n : Nut) (h : n.meanObliquity = meanObliquity jd)
    (site sun earth : V3) :
    (sunApparent jd n sun earth).vector = (precessionNutation jd n.dpsi n.deps).mulVec
        ((rx j2000Obliquity).mulVec (sun - earth))
      ∧ (sunApparent jd n sun earth).distance = len (sun - earth)
      ∧ (sunTopocentric jd n site sun earth).vector = (precessionNutation jd n.dpsi n.deps).mulVec
        ((rx j2000Obliquity).mulVec (sun - earth) - site)
      ∧ sunTopocentric jd n 0 sun earth = sunApparent jd n sun earth := by
  have hj : sunJ2000 sun earth = (rx j2000Obliquity).mulVec (sun - earth) := by
    rw [← geocentric_eq]; rfl
  have ht : ∀ s w : V3, (nutationMatrix n).mulVec ((precession jd).mulVec (fun i => w i - s i))
      = (precessionNutation jd n.dpsi n.deps).mulVec (w - s) := fun s w => by
    rw [Matrix.mulVec_mulVec, nutation_precession jd n h]; rfl
  refine ⟨?_, ?_, ?_, ?_⟩
  · unfold sunApparent
    rw [vector_ofVector, hj]
  · show len _ = _
    rw [hj, len_proper (proper_npb _ _ _).1, len_proper (proper_rx _).1]
  · unfold sunTopocentric topocentric
    simp only
    rw [vector_ofVector, ht, hj]
  · unfold sunTopocentric topocentric sunApparent
    simp only
    rw [ht, sub_zero]

/-- **C195.** The geocentric longitude of the Sun is opposite to the heliocentric longitude of the
Earth, in `[0, 2π)`. -/
theorem sun_longitude (sun earth : V3) (h : (earth - sun) 0 ≠ 0 ∨ (earth - sun) 1 ≠ 0) :
    Real.cos (sunLongitude sun earth) = -Real.cos (atan2 ((earth - sun) 1) ((earth - sun) 0))
      ∧ Real.sin (sunLongitude sun earth) = -Real.sin (atan2 ((earth - sun) 1) ((earth - sun) 0))
      ∧ 0 ≤ sunLongitude sun earth ∧ sunLongitude sun earth < 2 * Real.pi := by
  unfold sunLongitude
  rw [geocentric_eq]
  set d := earth - sun with hd
  have hn : sun - earth = -d := by rw [hd]; abel
  rw [hn]
  have hr : Real.sqrt (d 0 * d 0 + d 1 * d 1) ≠ 0 := by
    apply (Real.sqrt_pos.mpr ?_).ne'
    rcases h with h | h
    · have := mul_self_pos.mpr h
      nlinarith [mul_self_nonneg (d 1)]
    · have := mul_self_pos.mpr h
      nlinarith [mul_self_nonneg (d 0)]
  obtain ⟨p1, p2⟩ := atan2_polar (d 0) (d 1)
  obtain ⟨q1, q2⟩ := atan2_polar ((-d) 0) ((-d) 1)
  have er : Real.sqrt ((-d) 0 * (-d) 0 + (-d) 1 * (-d) 1) = Real.sqrt (d 0 * d 0 + d 1 * d 1) := by
    simp
  rw [er] at q1 q2
  refine ⟨?_, ?_, Verif.Apparent.wrap_range _⟩
  · rw [azimuthOf, cos_wrap]
    apply mul_left_cancel₀ hr
    rw [q1, mul_neg]
    exact congrArg Neg.neg p1.symm
  · rw [azimuthOf, sin_wrap]
    apply mul_left_cancel₀ hr
    rw [q2, mul_neg]
    exact congrArg Neg.neg p2.symm

/-! ## The frame bias -/

/-- The frame bias moves the pole. -/
theorem bias_pole : (Earth.bias.mulVec ![0, 0, 1]) 0 ≠ 0 := by
  have ht : centuries 2451545 = 0 := by norm_num [centuries]
  have e : (Earth.bias.mulVec ![0, 0, 1]) 0
      = -(Real.sin (arcsec (-0.041775)) * Real.sin (arcsec 84381.412819)) := by
    unfold Earth.bias precession fwMatrix fwAngles
    rw [ht]
    simp [rx, rz, Matrix.mulVec, dotProduct, Fin.sum_univ_three]
  rw [e]
  have hp := Real.pi_pos
  have h1 : Real.sin (arcsec (-0.041775)) < 0 := by
    apply Real.sin_neg_of_neg_of_neg_pi_lt
    · unfold arcsec; norm_num; nlinarith
    · unfold arcsec; norm_num; nlinarith
  have h2 : 0 < Real.sin (arcsec 84381.412819) := by
    apply Real.sin_pos_of_pos_of_lt_pi
    · unfold arcsec; norm_num; nlinarith
    · unfold arcsec; norm_num; nlinarith
  have := mul_neg_of_neg_of_pos h1 h2
  linarith

/-- The frame bias moves the equinox. -/
theorem bias_equinox : Earth.bias.mulVec ![1, 0, 0] ≠ ![1, 0, 0] := by
  intro h
  apply bias_pole
  have ht : Earth.biasᵀ.mulVec ![1, 0, 0] = ![1, 0, 0] := by
    conv_lhs => rw [← h]
    exact cancel proper_bias.1 _
  have : (Earth.bias.mulVec ![0, 0, 1]) 0 = Earth.biasᵀ.mulVec ![1, 0, 0] 2 := by
    simp [Matrix.mulVec, dotProduct, Fin.sum_univ_three]
  rw [this, ht]
  rfl

theorem mulVec_injective {m : M3} (h : mᵀ * m = 1) {v w : V3} (e : m.mulVec v = m.mulVec w) : v = w := by
  rw [← cancel h v, e, cancel h]

/-- **C196.** The place computed for the Sun against the crate's own rotation from the mean equator of
J2000 to the true equator of date: the frame bias is applied once too often, so the two agree
exactly for the vectors it leaves in place. -/
theorem sun_against_network (c : Ctx) (jd : ℝ) (h : (c.nut jd).meanObliquity = meanObliquity jd)
    (site v : V3) {m : M3} (hm : rotation c jd .meanJ2000 .trueOfDate = some m) :
    (topocentric jd (c.nut jd) site v).vector = m.mulVec (Earth.bias.mulVec (v - site))
      ∧ ((topocentric jd (c.nut jd) site v).vector = m.mulVec (v - site)
        ↔ Earth.bias.mulVec (v - site) = v - site) := by
  have em : m = precessionNutation jd (c.nut jd).dpsi (c.nut jd).deps * Earth.biasᵀ := by
    have : rotation c jd .meanJ2000 .trueOfDate
        = some (precessionNutation jd (c.nut jd).dpsi (c.nut jd).deps * Earth.biasᵀ) := rfl
    exact Option.some.inj (hm.symm.trans this)
  have hp : Proper m := by rw [em]; exact Proper.mul (proper_npb _ _ _) (proper_transpose proper_bias)
  have e1 : (topocentric jd (c.nut jd) site v).vector = m.mulVec (Earth.bias.mulVec (v - site)) := by
    unfold topocentric
    simp only
    rw [vector_ofVector, Matrix.mulVec_mulVec, nutation_precession jd _ h, em,
      ← Matrix.mulVec_mulVec, cancel proper_bias.1]
    rfl
  refine ⟨e1, ?_⟩
  rw [e1]
  exact ⟨fun e => mulVec_injective hp.1 e, fun e => by rw [e]⟩

/-- **C196 (finding).** At the March equinox of J2000 direction — the Earth on the negative first axis of
the ecliptic — the Sun's apparent place is not the one the frame network gives, whatever the date and
the nutation. -/
theorem sun_equinox_off (c : Ctx) (jd : ℝ) (h : (c.nut jd).meanObliquity = meanObliquity jd) :
    ∃ m, rotation c jd .meanJ2000 .trueOfDate = some m
      ∧ sunJ2000 0 ![-1, 0, 0] = ![1, 0, 0]
      ∧ (sunApparent jd (c.nut jd) 0 ![-1, 0, 0]).vector ≠ m.mulVec (sunJ2000 0 ![-1, 0, 0]) := by
  refine ⟨_, rfl, ?_, ?_⟩
  · funext i
    fin_cases i <;>
      simp [sunJ2000, toFrame, positionTo, eclToEq, geocentric, rx, Matrix.mulVec, dotProduct,
        Fin.sum_univ_three]
  · have e : sunJ2000 0 ![-1, 0, 0] = ![1, 0, 0] := by
      funext i
      fin_cases i <;>
        simp [sunJ2000, toFrame, positionTo, eclToEq, geocentric, rx, Matrix.mulVec, dotProduct,
          Fin.sum_univ_three]
    rw [← (sun_place jd _ h 0 0 ![-1, 0, 0]).2.2.2]
    intro hh
    have := (sun_against_network c jd h 0 (sunJ2000 0 ![-1, 0, 0]) rfl).2.mp
      (by rw [sub_zero]; exact hh)
    rw [sub_zero, e] at this
    exact bias_equinox this

end Verif.Place.Props
