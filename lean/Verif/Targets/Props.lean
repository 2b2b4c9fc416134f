import Verif.Targets.Model
import Verif.Targets.Spec
import Verif.Place.Props

/-!
# Targets: theorems
-/

namespace Verif.Targets.Props

open Verif.Earth
open Verif.Earth.Spec (Proper)
open Verif.Earth.Props
open Verif.Horizon (len toCart polarOf azimuthOf cart_angles unit_angles unit_ne len_pos len_cart
  len_nonneg len_zero)
open Verif.Apparent (wrap cos_wrap sin_wrap atan2_polar)
open Verif.Place.Props
open Verif.Sky (toRad toDeg)
open Verif.Star (Position ProperMotion Convention linear)
open Verif.Ffi (Status)
open Verif.Targets.Spec (SetsOut at_ Open)
open Matrix

/-! ## Vectors -/

theorem cart_at (ra dec : ℝ) : toCart (toRad dec) (toRad ra) = at_ ra dec := rfl

theorem rad_deg (x : ℝ) : toRad (toDeg x) = x := by
  unfold toRad toDeg
  have := Real.pi_ne_zero
  field_simp

theorem deg_rad (x : ℝ) : toDeg (toRad x) = x := by
  unfold toRad toDeg
  have := Real.pi_ne_zero
  field_simp

theorem at_len (ra dec : ℝ) : len (at_ ra dec) = 1 := len_cart _ _

theorem len_smul {r : ℝ} (hr : 0 ≤ r) (v : V3) : len (r • v) = r * len v := by
  unfold len
  rw [← Real.sqrt_sq hr, ← Real.sqrt_mul (sq_nonneg r), Real.sqrt_sq hr]
  congr 1
  simp only [Pi.smul_apply, smul_eq_mul]
  ring

theorem at_ofVector {v : V3} (h : v ≠ 0) : at_ (ofVector v).ra (ofVector v).dec = (1 / len v) • v := by
  rw [← cart_at]
  show toCart (toRad (toDeg _)) (toRad (toDeg _)) = _
  rw [rad_deg, rad_deg, cart_angles h]

/-- The vector product. -/
def cross (u v : V3) : V3 := ![u 1 * v 2 - u 2 * v 1, u 2 * v 0 - u 0 * v 2, u 0 * v 1 - u 1 * v 0]

theorem cross_cofactor (m : M3) (u v : V3) :
    mᵀ.mulVec (cross (m.mulVec u) (m.mulVec v)) = m.det • cross u v := by
  funext i
  fin_cases i <;>
    simp [cross, Matrix.mulVec, dotProduct, Fin.sum_univ_three, Matrix.det_fin_three] <;> ring

theorem cross_proper {m : M3} (h : Proper m) (u v : V3) :
    cross (m.mulVec u) (m.mulVec v) = m.mulVec (cross u v) := by
  have := cross_cofactor m u v
  rw [h.2, one_smul] at this
  rw [← this, cancel' h]

/-! ## Moving targets -/

/-- The direction to a target moved by the library's linear proper motion (proper_motion.rs:189-206);
a target without motion, or one that cannot be moved, stays. -/
noncomputable def moved (t : Target) (jd : ℝ) : V3 :=
  match t.motion with
  | none => at_ t.position.ra t.position.dec
  | some p => match linear t.position p jd t.time with
    | .ok q => at_ q.ra q.dec
    | .error _ => at_ t.position.ra t.position.dec

/-- Radians per day of one degree per year. -/
noncomputable def unit : ℝ := Real.pi / 180 / 365.25

theorem unit_pos : 0 < unit := by
  have := Real.pi_pos
  unfold unit
  positivity

/-- The velocity of a direction whose angles grow steadily. -/
noncomputable def velocity (ra dec r d : ℝ) : V3 :=
  unit • ![-(d * Real.sin (toRad dec) * Real.cos (toRad ra) + r * Real.cos (toRad dec) * Real.sin (toRad ra)),
    r * Real.cos (toRad dec) * Real.cos (toRad ra) - d * Real.sin (toRad dec) * Real.sin (toRad ra),
    d * Real.cos (toRad dec)]

theorem steady (ra dec r d e : ℝ) :
    HasDerivAt (fun jd => at_ (ra + r * ((jd - e) / 365.25)) (dec + d * ((jd - e) / 365.25)))
      (velocity ra dec r d) e := by
  have hl : ∀ x y : ℝ, HasDerivAt (fun jd : ℝ => (x + y * ((jd - e) / 365.25)) * (Real.pi / 180))
      (y * (1 / 365.25) * (Real.pi / 180)) e := fun x y =>
    ((((hasDerivAt_id e).sub_const e).div_const 365.25).const_mul y |>.const_add x).mul_const _
  have ha := hl ra r
  have hd := hl dec d
  have v : ∀ x y : ℝ, (x + y * ((e - e) / 365.25)) * (Real.pi / 180) = toRad x := fun x y => by
    unfold toRad; simp
  rw [hasDerivAt_pi]
  intro i
  fin_cases i
  · have := hd.cos.mul ha.cos
    rw [v, v] at this
    refine this.congr_deriv ?_
    simp [velocity, unit]
    ring
  · have := hd.cos.mul ha.sin
    rw [v, v] at this
    refine this.congr_deriv ?_
    simp [velocity, unit]
    ring
  · have := hd.sin
    rw [v] at this
    refine this.congr_deriv ?_
    simp [velocity, unit]
    ring

theorem velocity_cross (ra dec r : ℝ) :
    velocity ra dec r 0 = (unit * r) • cross Spec.pole (at_ ra dec) := by
  funext i
  fin_cases i <;> simp [velocity, cross, Spec.pole, at_, toRad] <;> ring

theorem velocity_scaled (ra dec r d : ℝ) :
    Real.cos (toRad dec) • velocity ra dec r d
      = unit • ((r * Real.cos (toRad dec)) • cross Spec.pole (at_ ra dec)
        + d • (Spec.pole - Real.sin (toRad dec) • at_ ra dec)) := by
  have hs := Real.sin_sq_add_cos_sq (toRad dec)
  funext i
  fin_cases i
  · simp [velocity, cross, Spec.pole, at_, toRad]; ring
  · simp [velocity, cross, Spec.pole, at_, toRad]; ring
  · simp only [toRad] at hs
    simp [velocity, cross, Spec.pole, at_, toRad]
    linear_combination unit * d * hs

theorem moved_start (t : Target) : moved t t.time = at_ t.position.ra t.position.dec := by
  unfold moved linear
  rcases t.motion with _ | p
  · rfl
  · cases hr : p.rate t.position.dec <;> simp [hr]

theorem moved_ok {t : Target} {p : ProperMotion} {r : ℝ} (hp : t.motion = some p)
    (hr : p.rate t.position.dec = .ok r) :
    HasDerivAt (moved t) (velocity t.position.ra t.position.dec r p.dec) t.time := by
  have : moved t = fun jd => at_ (t.position.ra + r * ((jd - t.time) / 365.25))
      (t.position.dec + p.dec * ((jd - t.time) / 365.25)) := by
    funext jd
    unfold moved linear
    rw [hp]
    simp [hr]
  rw [this]
  exact steady _ _ _ _ _

theorem moved_still {t : Target} (h : ∀ p, t.motion = some p → ∃ e, p.rate t.position.dec = .error e) :
    HasDerivAt (moved t) 0 t.time := by
  have : moved t = fun _ => at_ t.position.ra t.position.dec := by
    funext jd
    unfold moved linear
    rcases hm : t.motion with _ | p
    · rfl
    · obtain ⟨e, he⟩ := h p hm
      simp [he]
  rw [this]
  exact hasDerivAt_const _ _

theorem vector_ne {p : Position} (h : 0 < p.distance) : vector p ≠ 0 ∧ len (vector p) = p.distance := by
  have : len (vector p) = p.distance := by
    unfold vector
    rw [len_smul h.le, len_cart, mul_one]
  refine ⟨fun e => ?_, this⟩
  rw [e] at this
  have : len (0 : V3) = 0 := by simp [len]
  linarith

/-- **C202.** The converted target points where the target pointed, in the new frame, at the same
distance, epoch kept. -/
theorem converted_place {m : M3} (h : Proper m) (t : Target) (hd : 0 < t.position.distance) :
    let u := convert (fun _ => m.mulVec) t
    at_ u.position.ra u.position.dec = m.mulVec (at_ t.position.ra t.position.dec)
      ∧ u.position.distance = t.position.distance ∧ u.time = t.time := by
  obtain ⟨hn, hl⟩ := vector_ne hd
  have hl' : len (m.mulVec (vector t.position)) = t.position.distance := by rw [len_proper h.1, hl]
  refine ⟨?_, hl', rfl⟩
  show at_ (ofVector (m.mulVec (vector t.position))).ra (ofVector (m.mulVec (vector t.position))).dec = _
  rw [at_ofVector, hl']
  · unfold vector
    rw [mulVec_smul, smul_smul, one_div_mul_cancel hd.ne', one_smul, cart_at]
  · intro e
    rw [e] at hl'
    have : len (0 : V3) = 0 := by simp [len]
    linarith

theorem pole_back {m : M3} (h : Proper m) (hk : m.mulVec Spec.pole = Spec.pole) (v : V3) :
    (m.mulVec v) 2 = v 2 := by
  have := dot_proper h.1 Spec.pole v
  rw [hk, dot3, dot3] at this
  simpa [Spec.pole] using this

theorem dec_kept {m : M3} (h : Proper m) (hk : m.mulVec Spec.pole = Spec.pole) (t : Target)
    (hd : 0 < t.position.distance) (ho : Open t.position.dec) :
    (convert (fun _ => m.mulVec) t).position.dec = t.position.dec := by
  obtain ⟨hn, hl⟩ := vector_ne hd
  show toDeg (Real.arcsin ((m.mulVec (vector t.position)) 2 / len (m.mulVec (vector t.position)))) = _
  rw [pole_back h hk, len_proper h.1, hl]
  have : vector t.position 2 / t.position.distance = Real.sin (toRad t.position.dec) := by
    simp only [vector, toCart, Pi.smul_apply, smul_eq_mul, Matrix.cons_val]
    rw [mul_div_cancel_left₀ _ hd.ne']
  have hp := Real.pi_pos
  rw [this, Real.arcsin_sin, deg_rad]
  · unfold toRad; obtain ⟨a, -⟩ := ho; nlinarith
  · unfold toRad; obtain ⟨-, a⟩ := ho; nlinarith

theorem cos_open {d : ℝ} (h : Open d) : 0 < Real.cos (toRad d) := by
  have hp := Real.pi_pos
  apply Real.cos_pos_of_mem_Ioo
  constructor
  · unfold toRad; obtain ⟨a, -⟩ := h; nlinarith
  · unfold toRad; obtain ⟨-, a⟩ := h; nlinarith

theorem velocity_turned {m : M3} (h : Proper m) (hk : m.mulVec Spec.pole = Spec.pole) {ra ra' dec r d : ℝ}
    (ho : Open dec) (ha : at_ ra' dec = m.mulVec (at_ ra dec)) :
    velocity ra' dec r d = m.mulVec (velocity ra dec r d) := by
  have hc := (cos_open ho).ne'
  have e : Real.cos (toRad dec) • velocity ra' dec r d
      = Real.cos (toRad dec) • m.mulVec (velocity ra dec r d) := by
    rw [← mulVec_smul, velocity_scaled, velocity_scaled, ha, mulVec_smul, mulVec_add, mulVec_smul,
      mulVec_smul, mulVec_sub, mulVec_smul, hk, ← cross_proper h, hk]
  exact smul_right_injective _ hc e

/-- A target that sets out along `v`. -/
theorem sets_out_unique {path : ℝ → V3} {jd : ℝ} {p v w : V3} (h : SetsOut path jd p v)
    (hw : HasDerivAt path w jd) : v = w := h.2.unique hw

/-- **C203.** A change of frame that leaves the pole where it is keeps the meaning of proper motion:
the converted target sets out along the turned velocity. -/
theorem motion_kept {m : M3} (h : Proper m) (hk : m.mulVec Spec.pole = Spec.pole) (t : Target)
    (hd : 0 < t.position.distance) (ho : Open t.position.dec) {p v : V3}
    (hs : SetsOut (moved t) t.time p v) :
    SetsOut (moved (convert (fun _ => m.mulVec) t)) t.time (m.mulVec p) (m.mulVec v) := by
  obtain ⟨h1, h2, h3⟩ := converted_place h t hd
  have hdec := dec_kept h hk t hd ho
  obtain ⟨hp, hv⟩ := hs
  refine ⟨?_, ?_⟩
  · rw [← hp, moved_start, ← h3, moved_start, h1]
  · rw [← h3]
    rcases hm : t.motion with _ | q
    · have e := (moved_still (t := t) (by rw [hm]; simp)).unique hv
      rw [← e, mulVec_zero]
      exact moved_still (by intro x hx; exact absurd (hm.symm.trans hx) (by simp))
    · cases hr : q.rate t.position.dec with
      | error x =>
        have e := (moved_still (t := t) (by
          intro y hy
          rw [hm] at hy
          cases hy
          exact ⟨x, hr⟩)).unique hv
        rw [← e, mulVec_zero]
        apply moved_still
        intro y hy
        have hy' : t.motion = some y := hy
        rw [hm] at hy'
        cases hy'
        exact ⟨x, by rw [hdec]; exact hr⟩
      | ok r =>
        have e := (moved_ok hm hr).unique hv
        rw [← e]
        have := moved_ok (t := convert (fun _ => m.mulVec) t) (p := q) (r := r) hm (by rw [hdec]; exact hr)
        rw [hdec] at this h1
        rwa [velocity_turned h hk ho h1] at this

/-- **C203, finding.** Any other change of frame does not: on the celestial equator, at right ascension
0° or 90°, every target with proper motion in right ascension only, however small, sets out in a
wrong direction once converted. -/
theorem motion_lost {m : M3} (h : Proper m) (hk : m.mulVec Spec.pole ≠ Spec.pole) :
    ∃ ra, (ra = 0 ∨ ra = 90) ∧ ∀ dist time μ, 0 < dist → μ ≠ 0 →
      let t : Target := ⟨⟨ra, 0, dist⟩, time, some ⟨μ, 0, .muAlpha⟩⟩
      ∃ v, SetsOut (moved t) time (at_ ra 0) v
        ∧ ¬ HasDerivAt (moved (convert (fun _ => m.mulVec) t)) (m.mulVec v) time := by
  have key : ∀ ra, (∃ dist time μ, 0 < dist ∧ μ ≠ 0 ∧
      ¬ ∃ v, SetsOut (moved ⟨⟨ra, 0, dist⟩, time, some ⟨μ, 0, .muAlpha⟩⟩) time (at_ ra 0) v
        ∧ ¬ HasDerivAt (moved (convert (fun _ => m.mulVec) ⟨⟨ra, 0, dist⟩, time, some ⟨μ, 0, .muAlpha⟩⟩))
          (m.mulVec v) time) →
      cross (m.mulVec Spec.pole - Spec.pole) (m.mulVec (at_ ra 0)) = 0 := by
    rintro ra ⟨dist, time, μ, hd, hμ, hn⟩
    push Not at hn
    set t : Target := ⟨⟨ra, 0, dist⟩, time, some ⟨μ, 0, .muAlpha⟩⟩ with ht
    have h1 := moved_ok (t := t) (p := ⟨μ, 0, .muAlpha⟩) (r := μ) rfl rfl
    have h2 := hn _ ⟨moved_start t, h1⟩
    obtain ⟨c1, -, -⟩ := converted_place h t hd
    have h3 := moved_ok (t := convert (fun _ => m.mulVec) t) (p := ⟨μ, 0, .muAlpha⟩) (r := μ) rfl rfl
    have e := h3.unique h2
    simp only [velocity_cross] at e
    rw [c1, mulVec_smul, ← cross_proper h] at e
    have e' := smul_right_injective _ (mul_ne_zero unit_pos.ne' hμ) e
    have lin : cross (m.mulVec Spec.pole - Spec.pole) (m.mulVec (at_ ra 0))
        = cross (m.mulVec Spec.pole) (m.mulVec (at_ ra 0)) - cross Spec.pole (m.mulVec (at_ ra 0)) := by
      funext i
      fin_cases i <;> simp [cross] <;> ring
    rw [lin, sub_eq_zero]
    exact e'.symm
  by_contra hc
  push Not at hc
  apply hk
  obtain ⟨d0, t0, m0, hd0, hm0, h0⟩ := hc 0 (Or.inl rfl)
  obtain ⟨d1, t1, m1, hd1, hm1, h1⟩ := hc 90 (Or.inr rfl)
  have k0 := key 0 ⟨d0, t0, m0, hd0, hm0, h0⟩
  have k1 := key 90 ⟨d1, t1, m1, hd1, hm1, h1⟩
  have back : ∀ a : V3, cross (m.mulVec Spec.pole - Spec.pole) (m.mulVec a) = 0 →
      cross (Spec.pole - mᵀ.mulVec Spec.pole) a = 0 := by
    intro a ha
    have := cross_proper (proper_transpose h) (m.mulVec Spec.pole - Spec.pole) (m.mulVec a)
    rw [ha, mulVec_zero, mulVec_sub, cancel h.1, cancel h.1] at this
    exact this
  have b0 := back _ k0
  have b1 := back _ k1
  have a0 : at_ 0 0 = ![1, 0, 0] := by
    funext i; fin_cases i <;> simp [at_]
  have a1 : at_ 90 0 = ![0, 1, 0] := by
    have : (90 : ℝ) * (Real.pi / 180) = Real.pi / 2 := by ring
    funext i; fin_cases i <;> simp [at_, this]
  rw [a0] at b0
  rw [a1] at b1
  have z : Spec.pole - mᵀ.mulVec Spec.pole = 0 := by
    have x0 := congrFun b0 1
    have x1 := congrFun b0 2
    have x2 := congrFun b1 2
    simp [cross] at x0 x1 x2
    funext i
    fin_cases i
    · simpa using x2
    · show Spec.pole 1 - (mᵀ *ᵥ Spec.pole) 1 = 0
      linarith
    · simpa using x0
  have z' : mᵀ.mulVec Spec.pole = Spec.pole := (sub_eq_zero.mp z).symm
  rw [← z', cancel' h, z']

/-! ## The frames of catalogues -/

open Verif.Place (Fixed positionTo)

theorem obliquity_sin : 0 < Real.sin j2000Obliquity := by
  have hp := Real.pi_pos
  apply Real.sin_pos_of_pos_of_lt_pi
  · unfold j2000Obliquity; positivity
  · unfold j2000Obliquity
    rw [div_lt_iff₀ (by norm_num)]
    nlinarith

theorem rx_pole (a : ℝ) : (rx a).mulVec Spec.pole 0 = 0 ∧ ((rx a).mulVec Spec.pole = Spec.pole → Real.sin a = 0) := by
  refine ⟨by simp [rx, Spec.pole, Matrix.mulVec, dotProduct, Fin.sum_univ_three], fun h => ?_⟩
  have := congrFun h 1
  simpa [rx, Spec.pole, Matrix.mulVec, dotProduct, Fin.sum_univ_three] using this

theorem transpose_pole {m : M3} (h : Proper m) (hk : mᵀ.mulVec Spec.pole = Spec.pole) :
    m.mulVec Spec.pole = Spec.pole := by
  conv_lhs => rw [← hk]
  exact cancel' h _

theorem icrs_ecliptic_pole : (rx (-j2000Obliquity) * Earth.bias).mulVec Spec.pole ≠ Spec.pole := by
  intro h
  rw [← mulVec_mulVec] at h
  have h' : Earth.bias.mulVec Spec.pole = (rx j2000Obliquity).mulVec Spec.pole := by
    conv_rhs => rw [← h]
    rw [mulVec_mulVec, ← rx_add, add_neg_cancel, rx_zero, one_mulVec]
  exact bias_pole ((congrFun h' 0).trans (rx_pole _).1)

/-- Between different frames of the catalogues the pole moves. -/
theorem fixed_pole {a b : Fixed} (hab : a ≠ b) :
    ∃ m : M3, Proper m ∧ (∀ v, positionTo a b v = m.mulVec v) ∧ m.mulVec Spec.pole ≠ Spec.pole := by
  have hb : Earth.bias.mulVec Spec.pole ≠ Spec.pole := fun h => bias_pole (by
    rw [show (![0, 0, 1] : V3) = Spec.pole from rfl, h]; rfl)
  have ho := obliquity_sin
  cases a <;> cases b
  · exact absurd rfl hab
  · exact ⟨Earth.bias, proper_bias, fun v => rfl, hb⟩
  · exact ⟨_, Proper.mul (proper_rx _) proper_bias, fun v => rfl, icrs_ecliptic_pole⟩
  · exact ⟨_, proper_transpose proper_bias, fun v => rfl, fun h => hb (transpose_pole proper_bias h)⟩
  · exact absurd rfl hab
  · refine ⟨_, proper_rx _, fun v => rfl, fun h => ?_⟩
    have := (rx_pole _).2 h
    rw [Real.sin_neg] at this
    linarith
  · exact ⟨_, proper_transpose (Proper.mul (proper_rx _) proper_bias), fun v => rfl,
      fun h => icrs_ecliptic_pole (transpose_pole (Proper.mul (proper_rx _) proper_bias) h)⟩
  · refine ⟨_, proper_rx _, fun v => rfl, fun h => ?_⟩
    have := (rx_pole _).2 h
    linarith
  · exact absurd rfl hab

/-- **C203, finding.** Among ICRS, the mean equator and the mean ecliptic of J2000 no conversion of a
target keeps the meaning of its proper motion, except the conversion to the frame it is in. -/
theorem library_motion (a b : Fixed) :
    (∀ t : Target, 0 < t.position.distance → Open t.position.dec → ∀ p v,
      SetsOut (moved t) t.time p v →
      SetsOut (moved (convert (fun _ => positionTo a b) t)) t.time (positionTo a b p) (positionTo a b v))
      ↔ a = b := by
  constructor
  · intro h
    by_contra hab
    obtain ⟨m, hp, hm, hk⟩ := fixed_pole hab
    have e : (fun _ : ℝ => positionTo a b) = fun _ => m.mulVec := by
      funext _ v
      exact hm v
    obtain ⟨ra, -, hl⟩ := motion_lost hp hk
    obtain ⟨v, hs, hn⟩ := hl 1 0 1 one_pos one_ne_zero
    have := (h ⟨⟨ra, 0, 1⟩, 0, some ⟨1, 0, .muAlpha⟩⟩ one_pos ⟨by norm_num, by norm_num⟩ _ v hs).2
    rw [e, hm] at this
    exact hn this
  · rintro rfl t hd ho p v hs
    have e : ∀ v, positionTo a a v = (1 : M3).mulVec v := by
      intro v
      cases a <;> simp [positionTo]
    have e' : (fun _ : ℝ => positionTo a a) = fun _ => (1 : M3).mulVec := by
      funext _ v
      exact e v
    rw [e', e, e]
    exact motion_kept proper_one (one_mulVec _) t hd ho hs

/-! ## Generic targets of the C interface -/

/-- Coordinates that name a direction, and the direction. -/
inductive Points : Coord → CFrame → V3 → Prop
  | direction (d : CDir) : Points (.direction d) d.frame (at_ d.azimuth d.polar)
  | spherical (l b r : ℝ) (f : CFrame) : 0 < r →
      Points (.spherical (some l) (some b) (some r) f) f (at_ l b)
  | cartesian (x y z : ℝ) (f : CFrame) : 1 / 2 ^ 52 < Real.sqrt (x ^ 2 + y ^ 2 + z ^ 2) →
      Points (.cartesian (some x) (some y) (some z) f) f
        ((1 / Real.sqrt (x ^ 2 + y ^ 2 + z ^ 2)) • ![x, y, z])

/-- The frames a target may be given in, and their rotation to ICRS in the network. -/
def given : CFrame → Option Frame
  | .icrs => some .icrs
  | .icrf => some .icrf
  | .eclipticMeanJ2000 => some .eclipticJ2000
  | .equatorialMeanJ2000 => some .meanJ2000
  | .equatorialMeanOfDate => some .meanOfDate
  | .equatorialTrueOfDate => some .trueOfDate
  | .horizontal | .ecef | .galactic | .gcrs | .eclipticOfDate | .eclipticTrueOfDate | .cirs | .tirs
  | .itrf => none

theorem given_inertial {f : CFrame} {g : Frame} (h : given f = some g) : Inertial g ∧ (step g .icrs).isSome := by
  cases f <;> simp [given] at h <;> subst h <;> exact ⟨⟨by decide, by decide⟩, by decide +kernel⟩

theorem given_rotation {c : Ctx} {jd : ℝ} (ho : (c.nut jd).meanObliquity = meanObliquity jd) {f : CFrame}
    {g : Frame} (h : given f = some g) : ∃ m, rotation c jd g .icrs = some m ∧ Proper m := by
  obtain ⟨hi, hs⟩ := given_inertial h
  have one : Proper (1 : M3) := by constructor <;> simp
  obtain ⟨m, -, hm, -, hp, -⟩ := rotation_back (c := uncatalogued c) (jd := jd) ⟨one, one, ho⟩ hs
  refine ⟨m, ?_, hp⟩
  rw [← hm]
  unfold rotation
  cases hq : plan 8 g .icrs with
  | none => rfl
  | some p =>
    simp only [Option.map_some, plain_value c jd p (plan_plain hi ⟨by decide, by decide⟩ p hq)]

theorem rem_angle (x : ℝ) : ∃ k : ℤ, toRad (remEuclid (toDeg x) 360) = x - k * (2 * Real.pi) := by
  refine ⟨⌊toDeg x / 360⌋, ?_⟩
  have := rad_deg x
  unfold toRad at *
  unfold remEuclid
  linear_combination this

theorem rem_range (x : ℝ) : 0 ≤ remEuclid x 360 ∧ remEuclid x 360 < 360 := by
  unfold remEuclid
  have h1 := Int.floor_le (x / 360)
  have h2 := Int.lt_floor_add_one (x / 360)
  constructor <;> linarith [div_mul_cancel₀ x (show (360 : ℝ) ≠ 0 by norm_num)]

/-- The payload made from a Cartesian place: its unit vector, with angles in the usual ranges. -/
theorem cartesian_payload (x y z : ℝ) (f : CFrame) (h : 1 / 2 ^ 52 < Real.sqrt (x ^ 2 + y ^ 2 + z ^ 2)) :
    ∃ p, fromCartesian (some x) (some y) (some z) f = .ok p ∧ p.frame = f
      ∧ at_ p.azimuth p.polar = (1 / Real.sqrt (x ^ 2 + y ^ 2 + z ^ 2)) • ![x, y, z]
      ∧ (0 ≤ p.azimuth ∧ p.azimuth < 360) ∧ (-90 ≤ p.polar ∧ p.polar ≤ 90) := by
  have e : x * x + y * y + z * z = x ^ 2 + y ^ 2 + z ^ 2 := by ring
  unfold fromCartesian
  simp only [e]
  rw [if_neg (by unfold epsilon; exact not_le.mpr h)]
  set n := Real.sqrt (x ^ 2 + y ^ 2 + z ^ 2) with hn
  have hpos : 0 < n := lt_trans (by positivity) h
  have hsq : n ^ 2 = x ^ 2 + y ^ 2 + z ^ 2 := Real.sq_sqrt (by positivity)
  have hu : (x / n) ^ 2 + (y / n) ^ 2 + (z / n) ^ 2 = 1 := by
    field_simp
    linarith
  refine ⟨_, rfl, rfl, ?_, rem_range _, ?_⟩
  · obtain ⟨k, hk⟩ := rem_angle (atan2 (y / n) (x / n))
    have := Verif.Horizon.atan2_unit hu
    rw [← cart_at, rad_deg, hk]
    unfold toCart at *
    have ea : ∀ y x, Verif.Apparent.atan2 y x = atan2 y x := fun _ _ => rfl
    rw [cos_wrap, sin_wrap] at this
    simp only [ea] at this
    rw [Real.cos_sub_int_mul_two_pi, Real.sin_sub_int_mul_two_pi]
    have hv : (1 / n) • (![x, y, z] : V3) = ![x / n, y / n, z / n] := by
      funext i
      fin_cases i <;> simp <;> ring
    rw [hv, ← this]
    by_cases h0 : Real.sqrt (x / n * (x / n) + y / n * (y / n)) = 0
    · have hz : Real.cos (atan2 (z / n) 0) = 0 := by
        have h1 := congrFun this 0
        have hx : x / n * (x / n) + y / n * (y / n) = 0 := by
          rw [Real.sqrt_eq_zero] at h0
          · exact h0
          · nlinarith [mul_self_nonneg (x / n), mul_self_nonneg (y / n)]
        have hx0 : x / n = 0 := by nlinarith [mul_self_nonneg (x / n), mul_self_nonneg (y / n)]
        rw [h0] at h1
        simpa [hx0] using h1
      rw [h0, hz]
      simp
    · rw [if_pos h0]
  · have hp := Real.pi_pos
    have hr : 0 ≤ Real.sqrt (x / n * (x / n) + y / n * (y / n)) := Real.sqrt_nonneg _
    have ha : |atan2 (z / n) (Real.sqrt (x / n * (x / n) + y / n * (y / n)))| ≤ Real.pi / 2 := by
      unfold atan2
      rw [Complex.abs_arg_le_pi_div_two_iff]
      exact hr
    rw [abs_le] at ha
    unfold toDeg
    constructor
    · have : -(Real.pi / 2) * (180 / Real.pi) = -90 := by field_simp; norm_num
      rw [← this]
      exact mul_le_mul_of_nonneg_right ha.1 (by positivity)
    · have : (Real.pi / 2) * (180 / Real.pi) = 90 := by field_simp; norm_num
      rw [← this]
      exact mul_le_mul_of_nonneg_right ha.2 (by positivity)

/-- **C202.** A target is made from every set of coordinates that names a direction in one of the six
frames, at a finite epoch; it points, in ICRS, in that direction turned by the network's rotation, and
keeps the epoch. -/
theorem created {c : Ctx} {d : Data} {jd : ℝ} {f : CFrame} {g : Frame} {v : V3}
    (ho : (c.nut jd).meanObliquity = meanObliquity jd) (he : d.epoch = some jd)
    (hv : Points d.coord f v) (hf : given f = some g) :
    ∃ t m, build c d = .ok t ∧ rotation c jd g .icrs = some m ∧ Proper m
      ∧ at_ t.position.ra t.position.dec = m.mulVec v ∧ t.time = jd
      ∧ t.motion = if d.hasMotion then some d.motion else none := by
  obtain ⟨m, hm, hp⟩ := given_rotation ho hf
  have main : ∀ p : CDir, p.frame = f → at_ p.azimuth p.polar = v →
      ∃ q, toIcrs c p jd = .ok q ∧ at_ q.ra q.dec = m.mulVec v := by
    intro p hpf hpv
    unfold toIcrs
    by_cases hi : p.frame = .icrs
    · rw [if_pos hi]
      refine ⟨_, rfl, ?_⟩
      rw [hpf] at hi
      subst hi
      cases hf
      have : rotation c jd .icrs .icrs = some 1 := rfl
      rw [this] at hm
      cases hm
      rw [one_mulVec, ← hpv]
    · have hn : netFrame p.frame = some g := by
        rw [← hpf] at hf
        revert hf hi
        cases p.frame <;> simp [netFrame, given]
      rw [if_neg hi, hn]
      simp only [hm]
      refine ⟨_, rfl, ?_⟩
      have hu : len (m.mulVec (toCart (toRad p.polar) (toRad p.azimuth))) = 1 := by
        rw [len_proper hp.1, len_cart]
      rw [at_ofVector (unit_ne hu), hu, div_one, one_smul, cart_at, hpv]
  have fin : ∀ p : CDir, p.frame = f → at_ p.azimuth p.polar = v →
      payload d.coord = .ok p →
      ∃ t m, build c d = .ok t ∧ rotation c jd g .icrs = some m ∧ Proper m
      ∧ at_ t.position.ra t.position.dec = m.mulVec v ∧ t.time = jd
      ∧ t.motion = if d.hasMotion then some d.motion else none := by
    intro p hpf hpv hq
    obtain ⟨q, hq1, hq2⟩ := main p hpf hpv
    refine ⟨⟨q, jd, motionFrom d⟩, m, ?_, hm, hp, hq2, rfl, rfl⟩
    unfold build
    rw [he]
    simp only [hq, hq1]
  generalize hc : d.coord = co at hv
  cases hv with
  | direction p => exact fin p rfl rfl (by rw [hc]; rfl)
  | spherical l b r f hr =>
    exact fin ⟨b, l, f⟩ rfl rfl (by rw [hc]; simp [payload, fromSpherical, not_le.mpr hr])
  | cartesian x y z f hr =>
    obtain ⟨p, h1, h2, h3, -⟩ := cartesian_payload x y z f hr
    exact fin p h2 h3 (by rw [hc]; exact h1)

/-- **C202.** Nothing else is accepted. -/
theorem refused {c : Ctx} {d : Data} {t : Target} (h : build c d = .ok t) :
    ∃ jd f g v, d.epoch = some jd ∧ Points d.coord f v ∧ given f = some g := by
  unfold build at h
  cases he : d.epoch with
  | none => rw [he] at h; simp at h
  | some jd =>
    rw [he] at h
    simp only at h
    split at h
    · cases h
    · rename_i p hq
      have hg : ∃ g, given p.frame = some g := by
        unfold toIcrs at h
        by_cases hi : p.frame = .icrs
        · rw [hi]; exact ⟨_, rfl⟩
        · rw [if_neg hi] at h
          revert h hi
          cases p.frame <;> simp [netFrame, given]
      obtain ⟨g, hg⟩ := hg
      cases hc : d.coord with
      | direction q =>
        rw [hc] at hq
        cases hq
        exact ⟨jd, _, g, _, rfl, .direction _, hg⟩
      | spherical l b r f =>
        rw [hc] at hq
        unfold payload fromSpherical at hq
        rcases l with _ | l <;> rcases b with _ | b <;> rcases r with _ | r <;>
          simp only [reduceCtorEq] at hq
        split at hq
        · cases hq
        · rename_i hr
          cases hq
          exact ⟨jd, _, g, _, rfl, .spherical _ _ _ _ (not_le.mp hr), hg⟩
      | cartesian x y z f =>
        rw [hc] at hq
        rcases x with _ | x <;> rcases y with _ | y <;> rcases z with _ | z <;>
          simp only [payload, fromCartesian, reduceCtorEq] at hq
        split at hq
        · cases hq
        · rename_i hr
          cases hq
          refine ⟨jd, _, g, _, rfl, .cartesian _ _ _ _ ?_, hg⟩
          have e : x * x + y * y + z * z = x ^ 2 + y ^ 2 + z ^ 2 := by ring
          rw [e] at hr
          exact not_le.mp hr

/-- **C202.** The same point given by its angles and distance or by its components makes targets that
point in the same direction. -/
theorem same_point {c : Ctx} {d d' : Data} {jd l b r : ℝ} {f : CFrame} {g : Frame}
    (ho : (c.nut jd).meanObliquity = meanObliquity jd) (hf : given f = some g) (hr : 1 / 2 ^ 52 < r)
    (he : d.epoch = some jd) (he' : d'.epoch = some jd)
    (hd : d.coord = .spherical (some l) (some b) (some r) f)
    (hd' : d'.coord = .cartesian (some (r * at_ l b 0)) (some (r * at_ l b 1)) (some (r * at_ l b 2)) f) :
    ∃ t t', build c d = .ok t ∧ build c d' = .ok t'
      ∧ at_ t.position.ra t.position.dec = at_ t'.position.ra t'.position.dec := by
  have h0 : 0 < r := lt_trans (by positivity) hr
  have hn : Real.sqrt ((r * at_ l b 0) ^ 2 + (r * at_ l b 1) ^ 2 + (r * at_ l b 2) ^ 2) = r := by
    have := len_smul h0.le (at_ l b)
    rw [at_len, mul_one] at this
    exact this
  obtain ⟨t, m, h1, h2, -, h4, -⟩ := created ho he (hd ▸ Points.spherical l b r f h0) hf
  obtain ⟨t', m', h1', h2', -, h4', -⟩ :=
    created ho he' (hd' ▸ Points.cartesian _ _ _ f (by rw [hn]; exact hr)) hf
  refine ⟨t, t', h1, h1', ?_⟩
  rw [h2] at h2'
  cases h2'
  rw [h4, h4', hn]
  congr 1
  funext i
  fin_cases i <;> simp <;> field_simp

/-- **C203, finding.** A target given in the ecliptic or the mean equator of J2000 is stored in ICRS
with the proper motion it was given, not turned: it sets out in a wrong direction. -/
theorem c_motion_lost {c : Ctx} {jd : ℝ} {f : CFrame} (hf : f = .eclipticMeanJ2000 ∨ f = .equatorialMeanJ2000) :
    ∃ ra g m, given f = some g ∧ rotation c jd g .icrs = some m ∧ ∀ μ, μ ≠ 0 →
      ∃ t v, build c ⟨.direction ⟨0, ra, f⟩, some jd, true, ⟨μ, 0, .muAlpha⟩⟩ = .ok t
        ∧ SetsOut (moved ⟨⟨ra, 0, 1⟩, jd, some ⟨μ, 0, .muAlpha⟩⟩) jd (at_ ra 0) v
        ∧ ¬ HasDerivAt (moved t) (m.mulVec v) jd := by
  have main : ∀ (g : Frame) (m : M3), given f = some g → netFrame f = some g → f ≠ .icrs →
      rotation c jd g .icrs = some m → Proper m → m.mulVec Spec.pole ≠ Spec.pole →
      ∃ ra g m, given f = some g ∧ rotation c jd g .icrs = some m ∧ ∀ μ, μ ≠ 0 →
      ∃ t v, build c ⟨.direction ⟨0, ra, f⟩, some jd, true, ⟨μ, 0, .muAlpha⟩⟩ = .ok t
        ∧ SetsOut (moved ⟨⟨ra, 0, 1⟩, jd, some ⟨μ, 0, .muAlpha⟩⟩) jd (at_ ra 0) v
        ∧ ¬ HasDerivAt (moved t) (m.mulVec v) jd := by
    intro g m hg hn hi hm hp hk
    obtain ⟨ra, -, hl⟩ := motion_lost hp hk
    refine ⟨ra, g, m, hg, hm, fun μ hμ => ?_⟩
    obtain ⟨v, hv, hd⟩ := hl 1 jd μ one_pos hμ
    refine ⟨_, v, ?_, hv, hd⟩
    unfold build payload toIcrs
    simp only [if_neg hi, hn, hm]
    simp [convert, vector, motionFrom]
  rcases hf with rfl | rfl
  · obtain ⟨m, hp, hm, hk⟩ := fixed_pole (a := .ecliptic) (b := .icrs) (by decide)
    refine main .eclipticJ2000 ((rx (-j2000Obliquity) * Earth.bias)ᵀ) rfl rfl (by decide) rfl
      (proper_transpose (Proper.mul (proper_rx _) proper_bias)) fun h =>
      icrs_ecliptic_pole (transpose_pole (Proper.mul (proper_rx _) proper_bias) h)
  · refine main .meanJ2000 Earth.biasᵀ rfl rfl (by decide) rfl (proper_transpose proper_bias) fun h => ?_
    have := transpose_pole proper_bias h
    exact bias_pole (by rw [show (![0, 0, 1] : V3) = Spec.pole from rfl, this]; rfl)

/-! ## Examples -/

/-- A target on the ecliptic at 90°, four light units away. -/
example : ∃ t, build exactCtx ⟨.cartesian (some 0) (some 4) (some 0) .eclipticMeanJ2000, some 2451545,
    true, ⟨1, 0, .muAlpha⟩⟩ = .ok t := by
  obtain ⟨t, m, h, -⟩ := created (c := exactCtx) (jd := 2451545) (f := .eclipticMeanJ2000)
    (d := ⟨.cartesian (some 0) (some 4) (some 0) .eclipticMeanJ2000, some 2451545, true, ⟨1, 0, .muAlpha⟩⟩)
    rfl rfl (Points.cartesian 0 4 0 _ (by
      rw [show (0 : ℝ) ^ 2 + 4 ^ 2 + 0 ^ 2 = 4 ^ 2 by norm_num, Real.sqrt_sq (by norm_num)]; norm_num)) rfl
  exact ⟨t, h⟩

/-- A turn about the pole keeps it. -/
example : (rz 1).mulVec Spec.pole = Spec.pole := by
  funext i
  fin_cases i <;> simp [rz, Spec.pole, Matrix.mulVec, dotProduct, Fin.sum_univ_three]

end Verif.Targets.Props
