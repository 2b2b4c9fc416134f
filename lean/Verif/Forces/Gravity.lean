import Verif.Forces.Model
import Verif.Forces.Spec

/-!
# Third bodies, relativity, empirical accelerations, geopotential
-/

namespace Verif.Forces

theorem vec_eq {a b : Vec3} (h0 : a 0 = b 0) (h1 : a 1 = b 1) (h2 : a 2 = b 2) : a = b := by
  ext i
  fin_cases i
  · exact h0
  · exact h1
  · exact h2

theorem inner_vec (a b : Vec3) : inner ℝ a b = a 0 * b 0 + a 1 * b 1 + a 2 * b 2 := by
  simp [PiLp.inner_apply, Fin.sum_univ_three]
  ring

theorem norm_sq_vec (a : Vec3) : ‖a‖ ^ 2 = a 0 * a 0 + a 1 * a 1 + a 2 * a 2 := by
  rw [← real_inner_self_eq_norm_sq, inner_vec]

theorem radius_eq (v : Vec3) : Real.sqrt (v 0 * v 0 + v 1 * v 1 + v 2 * v 2) = ‖v‖ := by
  rw [← norm_sq_vec, Real.sqrt_sq (norm_nonneg v)]

theorem norm_of_sq {v : Vec3} {n : ℝ} (hn : 0 ≤ n) (h : v 0 * v 0 + v 1 * v 1 + v 2 * v 2 = n ^ 2) : ‖v‖ = n := by
  rw [← radius_eq, h, Real.sqrt_sq hn]

/-! ## Third bodies -/

theorem rpow_three_halves {x : ℝ} (hx : 0 ≤ x) : x ^ (1.5 : ℝ) = x * Real.sqrt x := by
  rw [Real.sqrt_eq_rpow]
  rcases hx.eq_or_lt with h | h
  · rw [← h]
    norm_num
  · conv_rhs => rw [← Real.rpow_one x]
    rw [← Real.rpow_mul h.le, ← Real.rpow_add h]
    norm_num

/-- Battin's function: `1 + f(q) = (1 + q)^{3/2}`. -/
theorem battin_function {q : ℝ} (hq : 0 ≤ 1 + q) :
    1 + q * (3 + q * (3 + q)) / (1 + (1 + q) ^ (1.5 : ℝ)) = (1 + q) ^ (1.5 : ℝ) := by
  have hp : 0 ≤ (1 + q) ^ (1.5 : ℝ) := Real.rpow_nonneg hq _
  have hs : (1 + q) ^ (1.5 : ℝ) * (1 + q) ^ (1.5 : ℝ) = (1 + q) ^ 3 := by
    rw [rpow_three_halves hq]
    have := Real.mul_self_sqrt hq
    calc _ = (1 + q) ^ 2 * (Real.sqrt (1 + q) * Real.sqrt (1 + q)) := by ring
      _ = _ := by rw [this]; ring
  have : 1 + (1 + q) ^ (1.5 : ℝ) ≠ 0 := by positivity
  field_simp
  nlinarith

/-- **C118**: the acceleration is the attraction of the body at the satellite minus that at the origin. -/
theorem battin_tidal {rs rb : Vec3} (mu : ℝ) (hb : rb ≠ 0) (hs : rs ≠ rb) : battin rs rb mu = Spec.tidal mu rs rb := by
  have hn : 0 < ‖rb‖ := norm_pos_iff.mpr hb
  have hd : 0 < ‖rb - rs‖ := norm_pos_iff.mpr (sub_ne_zero.mpr (Ne.symm hs))
  have e1 : rb 0 * rb 0 + rb 1 * rb 1 + rb 2 * rb 2 = ‖rb‖ ^ 2 := (norm_sq_vec rb).symm
  have ed : ‖rb - rs‖ ^ 2 = ‖rb‖ ^ 2 + (rs 0 * (rs 0 - 2 * rb 0) + rs 1 * (rs 1 - 2 * rb 1) + rs 2 * (rs 2 - 2 * rb 2)) := by
    rw [norm_sq_vec, norm_sq_vec]
    simp only [PiLp.sub_apply]
    ring
  unfold battin
  simp only [e1, Real.sqrt_sq hn.le, if_neg hn.ne']
  set q := (rs 0 * (rs 0 - 2 * rb 0) + rs 1 * (rs 1 - 2 * rb 1) + rs 2 * (rs 2 - 2 * rb 2)) / ‖rb‖ ^ 2 with hq
  have h1q : 1 + q = (‖rb - rs‖ / ‖rb‖) ^ 2 := by
    rw [div_pow, ed, hq]
    field_simp
  have h0 : 0 ≤ 1 + q := by rw [h1q]; positivity
  have hf := battin_function h0
  have hp : (1 + q) ^ (1.5 : ℝ) = (‖rb - rs‖ / ‖rb‖) ^ 3 := by
    rw [rpow_three_halves h0, h1q, Real.sqrt_sq (by positivity)]
    ring
  set F := q * (3 + q * (3 + q)) / (1 + (1 + q) ^ (1.5 : ℝ)) with hF
  rw [hp] at hf
  have hden : ‖rb‖ * ‖rb‖ ^ 2 * (1 + F) = ‖rb - rs‖ ^ 3 := by
    rw [hf]
    field_simp
  rw [hden, if_neg (by positivity)]
  have hF' : F = (‖rb - rs‖ / ‖rb‖) ^ 3 - 1 := by linarith
  unfold Spec.tidal Spec.attraction
  have d1 : dist rs rb = ‖rb - rs‖ := by rw [dist_comm, dist_eq_norm]
  have d2 : dist (0 : Spec.Vec3) rb = ‖rb‖ := by rw [dist_comm, dist_zero_right]
  rw [d1, d2, hF']
  apply vec_eq <;>
  · simp only [PiLp.sub_apply, PiLp.smul_apply, smul_eq_mul, PiLp.zero_apply, Matrix.cons_val_zero, Matrix.cons_val_one,
      Matrix.cons_val]
    field_simp
    ring

/-- A satellite at the centre of the body, or a body at the origin: the function gives zero. -/
theorem battin_degenerate (rs rb : Vec3) (mu : ℝ) (h : rb = 0 ∨ rs = rb) : battin rs rb mu = 0 := by
  by_cases hb : rb = 0
  · unfold battin
    simp only [radius_eq, hb, norm_zero, if_true]
  · have h' : rs = rb := h.resolve_left hb
    have hn : 0 < ‖rb‖ := norm_pos_iff.mpr hb
    unfold battin
    simp only [radius_eq, if_neg hn.ne', h']
    have e1 : rb 0 * rb 0 + rb 1 * rb 1 + rb 2 * rb 2 = ‖rb‖ ^ 2 := (norm_sq_vec rb).symm
    have hq : (rb 0 * (rb 0 - 2 * rb 0) + rb 1 * (rb 1 - 2 * rb 1) + rb 2 * (rb 2 - 2 * rb 2))
        / (rb 0 * rb 0 + rb 1 * rb 1 + rb 2 * rb 2) = -1 := by
      rw [e1, div_eq_iff (by positivity), ← e1]
      ring
    rw [hq]
    have := battin_function (q := -1) (by norm_num)
    rw [this, if_pos]
    norm_num

theorem thirdBodyLoop_ok (eph : Ephemeris) (jd : ℝ) (rs : Vec3) (bs : List Body) (t : Vec3) (ps : List Vec3)
    (h : bs.map (fun b => b.position eph jd) = ps.map Except.ok) :
    thirdBodyLoop eph jd rs bs t = .ok (t + ((bs.zip ps).map (fun x => battin rs x.2 x.1.gm)).sum) := by
  induction bs generalizing t ps with
  | nil =>
    simp [thirdBodyLoop]
  | cons b bs ih =>
    cases ps with
    | nil => simp at h
    | cons p ps =>
      simp only [List.map_cons, List.cons.injEq] at h
      unfold thirdBodyLoop
      rw [h.1]
      simp only
      rw [ih _ _ h.2, List.zip_cons_cons, List.map_cons, List.sum_cons, add_assoc]

theorem thirdBodyLoop_err (eph : Ephemeris) (jd : ℝ) (rs : Vec3) (bs : List Body) (t : Vec3)
    (h : ∃ b ∈ bs, ∃ e, b.position eph jd = .error e) :
    ∃ b ∈ bs, ∃ e, b.position eph jd = .error e ∧ thirdBodyLoop eph jd rs bs t = .error e := by
  induction bs generalizing t with
  | nil => simp at h
  | cons b bs ih =>
    unfold thirdBodyLoop
    cases hb : b.position eph jd with
    | error e => exact ⟨b, List.mem_cons_self, e, hb, rfl⟩
    | ok p =>
      have : ∃ b ∈ bs, ∃ e, b.position eph jd = .error e := by
        obtain ⟨b', hm, e, he⟩ := h
        rcases List.mem_cons.mp hm with rfl | hm
        · rw [hb] at he; simp at he
        · exact ⟨b', hm, e, he⟩
      obtain ⟨b', hm, e, he, hl⟩ := ih (t + battin rs p b.gm) this
      exact ⟨b', List.mem_cons_of_mem _ hm, e, he, hl⟩

/-- **C118**: with an ephemeris that places every body away from the origin and the satellite, the total is the sum of
the tidal accelerations of the bodies. -/
theorem third_body_sum {Γ : Type} (ctx : Context Γ) (eph : Ephemeris) (hc : ctx.ephemeris = some eph) (bodies : List Body)
    (rs : Vec3) (jd : ℝ) (ps : List Vec3) (h : bodies.map (fun b => b.position eph jd) = ps.map Except.ok)
    (hp : ∀ p ∈ ps, p ≠ 0 ∧ rs ≠ p) :
    thirdBody bodies rs jd ctx = .ok ((bodies.zip ps).map (fun x => Spec.tidal x.1.gm rs x.2)).sum := by
  have hlen : bodies.length = ps.length := by simpa using congrArg List.length h
  have hmap : (bodies.zip ps).map (fun x => battin rs x.2 x.1.gm)
      = (bodies.zip ps).map (fun x => Spec.tidal x.1.gm rs x.2) := by
    apply List.map_congr_left
    rintro ⟨b, p⟩ hx
    obtain ⟨h0, h1⟩ := hp p (List.of_mem_zip hx).2
    exact battin_tidal _ h0 h1
  unfold thirdBody requireEphemeris
  cases bodies with
  | nil => simp
  | cons b bs =>
    simp only [hc]
    rw [thirdBodyLoop_ok eph jd rs _ 0 ps h, zero_add, hmap]

/-- **C118**: without bodies the result is zero and no ephemeris is needed; with bodies a missing ephemeris is an error,
and so is a body that the ephemeris cannot place. -/
theorem third_body_errors {Γ : Type} (ctx : Context Γ) (bodies : List Body) (rs : Vec3) (jd : ℝ) :
    (bodies = [] → thirdBody bodies rs jd ctx = .ok 0) ∧
    (bodies ≠ [] → ctx.ephemeris = none → thirdBody bodies rs jd ctx = .error (.ephemerisUnavailable "(any)")) ∧
    (∀ eph, ctx.ephemeris = some eph → (∃ b ∈ bodies, ∃ e, b.position eph jd = .error e) →
      ∃ b ∈ bodies, ∃ e, b.position eph jd = .error e ∧ thirdBody bodies rs jd ctx = .error e) := by
  refine ⟨?_, ?_, ?_⟩
  · rintro rfl; rfl
  · intro h hc
    cases bodies with
    | nil => exact absurd rfl h
    | cons b bs => unfold thirdBody requireEphemeris; simp only [hc]
  · intro eph hc h
    have := thirdBodyLoop_err eph jd rs bodies 0 h
    cases bodies with
    | nil => simp at h
    | cons b bs => unfold thirdBody requireEphemeris; simp only [hc]; exact this

/-- **C118**: the order of the bodies does not matter. -/
theorem third_body_order {Γ : Type} (ctx : Context Γ) (bodies bodies' : List Body) (h : bodies.Perm bodies') (rs : Vec3)
    (jd : ℝ) (a : Vec3) (ha : thirdBody bodies rs jd ctx = .ok a) : thirdBody bodies' rs jd ctx = .ok a := by
  have key : ∀ (eph : Ephemeris) (l l' : List Body), l.Perm l' → ∀ t a, thirdBodyLoop eph jd rs l t = .ok a →
      thirdBodyLoop eph jd rs l' t = .ok a := by
    intro eph l l' hp
    induction hp with
    | nil => intro t a h; exact h
    | cons x _ ih =>
      intro t a h
      unfold thirdBodyLoop at h ⊢
      cases hx : x.position eph jd with
      | error e => rw [hx] at h; simp at h
      | ok p => rw [hx] at h; exact ih _ _ h
    | swap x y l =>
      intro t a h
      unfold thirdBodyLoop at h ⊢
      unfold thirdBodyLoop at h ⊢
      cases hx : x.position eph jd <;> cases hy : y.position eph jd <;> rw [hx, hy] at h <;> simp only at h ⊢ <;>
        first
        | contradiction
        | (rw [add_right_comm]; exact h)
    | trans _ _ ih1 ih2 => intro t a h; exact ih2 _ _ (ih1 _ _ h)
  cases bodies with
  | nil => rw [List.nil_perm.mp h]; exact ha
  | cons b bs =>
    cases bodies' with
    | nil => exact absurd h.length_eq (by simp)
    | cons b' bs' =>
      unfold thirdBody at ha ⊢
      simp only at ha ⊢
      cases he : requireEphemeris ctx with
      | error e => rw [he] at ha; exact ha
      | ok eph => rw [he] at ha; exact key eph _ _ h _ _ ha

/-- **C118**: the Sun is placed at the difference of the barycentric positions, in kilometres, the Moon where the ephemeris
has it, both turned to the equator. -/
theorem bodies_placed (rot : Vec3 →ₗ[ℝ] Vec3) (hrot : ∀ v, ‖rot v‖ = ‖v‖) (eph : Ephemeris) (jd : ℝ) :
    (∀ p, sunGeocentric rot eph jd = .ok p → ∃ s e, eph.sun jd = some s ∧ eph.earth jd = some e ∧
      ‖p‖ = 149597870.7 * dist s e ∧ p = rot ((149597870.7 : ℝ) • (s - e))) ∧
    (∀ p, moonGeocentric rot eph jd = .ok p → ∃ m, eph.moon jd = some m ∧ ‖p‖ = ‖m‖ ∧ p = rot m) := by
  constructor
  · intro p h
    unfold sunGeocentric at h
    cases hs : eph.sun jd with
    | none => rw [hs] at h; simp at h
    | some s =>
      cases he : eph.earth jd with
      | none => rw [hs, he] at h; simp at h
      | some e =>
        rw [hs, he] at h
        simp only [Except.ok.injEq] at h
        refine ⟨s, e, rfl, rfl, ?_, ?_⟩
        · rw [← h, norm_smul, hrot, dist_eq_norm]
          unfold auKm
          norm_num
        · rw [← h, map_smul]; rfl
  · intro p h
    unfold moonGeocentric at h
    cases hm : eph.moon jd with
    | none => rw [hm] at h; simp at h
    | some m =>
      rw [hm] at h
      simp only [Except.ok.injEq] at h
      exact ⟨m, rfl, by rw [← h, hrot], h.symm⟩

/-- **C118**: with Sun and Moon requested the acceleration is the tidal one of both, each with its own gravitational parameter
at its own place. -/
theorem sun_moon {Γ : Type} (ctx : Context Γ) (eph : Ephemeris) (hc : ctx.ephemeris = some eph) (rot : Vec3 →ₗ[ℝ] Vec3)
    (gs gm : ℝ) (r : Vec3) (jd : ℝ) {s e m : Vec3} (h1 : eph.sun jd = some s) (h2 : eph.earth jd = some e)
    (h3 : eph.moon jd = some m) (hs : rot ((149597870.7 : ℝ) • (s - e)) ≠ 0) (hm : rot m ≠ 0)
    (hs' : r ≠ rot ((149597870.7 : ℝ) • (s - e))) (hm' : r ≠ rot m) :
    thirdBody [sunBody rot gs, moonBody rot gm] r jd ctx
      = .ok (Spec.tidal gs r (rot ((149597870.7 : ℝ) • (s - e))) + Spec.tidal gm r (rot m)) := by
  have e1 : sunGeocentric rot eph jd = .ok (rot ((149597870.7 : ℝ) • (s - e))) := by
    unfold sunGeocentric
    rw [h1, h2, map_smul]
    rfl
  have e2 : moonGeocentric rot eph jd = .ok (rot m) := by
    unfold moonGeocentric
    rw [h3]
  have := third_body_sum ctx eph hc [sunBody rot gs, moonBody rot gm] r jd [rot ((149597870.7 : ℝ) • (s - e)), rot m]
    (by simp [sunBody, moonBody, e1, e2])
    (by
      intro p hp
      rw [List.mem_cons, List.mem_singleton] at hp
      rcases hp with rfl | rfl
      · exact ⟨hs, hs'⟩
      · exact ⟨hm, hm'⟩)
  rw [this]
  simp [sunBody, moonBody]

/-- A satellite 7000 km from the centre in the direction of the Moon: pulled outwards. -/
example : battin !₂[7000, 0, 0] !₂[384400, 0, 0] 4902.8 = Spec.tidal 4902.8 !₂[7000, 0, 0] !₂[384400, 0, 0] :=
  battin_tidal _ (fun h => by have := congrArg (fun v : Vec3 => v 0) h; simp at this)
    (fun h => by have := congrArg (fun v : Vec3 => v 0) h; norm_num at this)

/-! ## Relativity -/

/-- **C121**: the acceleration is the post-Newtonian one: `GM/(c²r³)·[(4GM/r − v²) r + 4(r·v) v]`, refused below 100 km. -/
theorem relativity_eq (gm c : ℝ) (r v : Vec3) :
    (‖r‖ < 100 → relativity gm c r v = .error .degenerate) ∧
    (100 ≤ ‖r‖ → relativity gm c r v
      = .ok ((gm / (c ^ 2 * ‖r‖ ^ 3)) • ((4 * gm / ‖r‖ - ‖v‖ ^ 2) • r + (4 * inner ℝ r v) • v))) := by
  constructor
  · intro h
    unfold relativity
    simp only [radius_eq, if_pos h]
  · intro h
    have hr : 0 < ‖r‖ := by linarith
    unfold relativity
    simp only [radius_eq, if_neg (not_lt.mpr h)]
    rw [← norm_sq_vec, ← norm_sq_vec, ← inner_vec]
    congr 1
    apply vec_eq <;>
    · simp only [PiLp.add_apply, PiLp.smul_apply, smul_eq_mul, Matrix.cons_val_zero, Matrix.cons_val_one, Matrix.cons_val]
      rw [show ‖r‖ ^ 2 * ‖r‖ = ‖r‖ ^ 3 by ring]

/-- **C121**: on a circular orbit the correction points outwards with magnitude `3 GM²/(c² r³)`. -/
theorem relativity_circular {gm c : ℝ} {r v : Vec3} (hr : 100 ≤ ‖r‖) (h0 : inner ℝ r v = 0) (hv : ‖v‖ ^ 2 = gm / ‖r‖) :
    relativity gm c r v = .ok ((3 * gm ^ 2 / (c ^ 2 * ‖r‖ ^ 4)) • r) := by
  rw [(relativity_eq gm c r v).2 hr, h0, hv]
  have hr : 0 < ‖r‖ := by linarith
  congr 1
  rw [mul_zero, zero_smul, add_zero, smul_smul]
  congr 1
  field_simp
  ring

/-- **C121**: the correction does not depend on the sense of the motion and turns with the orbit. -/
theorem relativity_symmetry (gm c : ℝ) (r v : Vec3) (rot : Vec3 →ₗᵢ[ℝ] Vec3) :
    relativity gm c r (-v) = relativity gm c r v ∧
    (∀ a, relativity gm c r v = .ok a → relativity gm c (rot r) (rot v) = .ok (rot a)) := by
  by_cases h : ‖r‖ < 100
  · rw [(relativity_eq gm c r v).1 h, (relativity_eq gm c r (-v)).1 h]
    exact ⟨rfl, fun a ha => by simp at ha⟩
  · push Not at h
    rw [(relativity_eq gm c r v).2 h, (relativity_eq gm c r (-v)).2 h]
    constructor
    · rw [norm_neg, inner_neg_right]
      simp
    · intro a ha
      rw [(relativity_eq gm c _ _).2 (by rw [rot.norm_map]; exact h)]
      simp only [Except.ok.injEq] at ha
      rw [← ha, rot.norm_map, rot.norm_map, rot.inner_map_map]
      simp only [map_smul, map_add]

example : ∃ a, relativity 398600.4418 299792.458 !₂[7000, 0, 0] !₂[0, 7.5, 0] = .ok a :=
  ⟨_, (relativity_eq _ _ _ _).2 (by rw [norm_of_sq (n := 7000) (by norm_num) (by simp; norm_num)]; norm_num)⟩

/-! ## Empirical accelerations -/

theorem cross_inner_left (a b : Vec3) : inner ℝ a (Spec.cross a b) = 0 := by
  rw [inner_vec]
  simp [Spec.cross]
  ring

theorem cross_inner_right (a b : Vec3) : inner ℝ b (Spec.cross a b) = 0 := by
  rw [inner_vec]
  simp [Spec.cross]
  ring

theorem cross_norm_sq (a b : Vec3) : ‖Spec.cross a b‖ ^ 2 = ‖a‖ ^ 2 * ‖b‖ ^ 2 - (inner ℝ a b) ^ 2 := by
  rw [norm_sq_vec, norm_sq_vec, norm_sq_vec, inner_vec]
  simp [Spec.cross]
  ring

/-- **C121**: the acceleration has the given components along the position, along the direction of motion at right angles
to it in the orbital plane, and along the angular momentum; position and velocity that span no plane are refused. -/
theorem empirical_components (radial transverse normal : ℝ) (r v : Vec3) :
    (Spec.cross r v = 0 → empirical radial transverse normal r v = .error .degenerate) ∧
    (Spec.cross r v ≠ 0 → ∃ a, empirical radial transverse normal r v = .ok a ∧
      inner ℝ a r = radial * ‖r‖ ∧
      inner ℝ a (Spec.cross (Spec.cross r v) r) = transverse * (‖Spec.cross r v‖ * ‖r‖) ∧
      inner ℝ a (Spec.cross r v) = normal * ‖Spec.cross r v‖ ∧
      ‖a‖ ^ 2 = radial ^ 2 + transverse ^ 2 + normal ^ 2 ∧
      0 < inner ℝ v (Spec.cross (Spec.cross r v) r)) := by
  have ec : Real.sqrt ((r 1 * v 2 - r 2 * v 1) * (r 1 * v 2 - r 2 * v 1) + (r 2 * v 0 - r 0 * v 2) * (r 2 * v 0 - r 0 * v 2)
      + (r 0 * v 1 - r 1 * v 0) * (r 0 * v 1 - r 1 * v 0)) = ‖Spec.cross r v‖ := by
    rw [← radius_eq]
    simp [Spec.cross]
  constructor
  · intro h
    unfold empirical
    simp only [radius_eq, ec, h, norm_zero, if_true, ite_self]
  · intro h
    have hn : 0 < ‖Spec.cross r v‖ := norm_pos_iff.mpr h
    have hr : 0 < ‖r‖ := by
      rw [norm_pos_iff]
      rintro rfl
      apply h
      apply vec_eq <;> simp [Spec.cross]
    have hv := cross_norm_sq r v
    unfold empirical
    simp only [radius_eq, ec, if_neg hn.ne', if_neg hr.ne']
    set k := Spec.cross r v with hk
    set w := Spec.cross k r with hw
    have rk : inner ℝ r k = (0 : ℝ) := cross_inner_left r v
    have kw : inner ℝ k w = (0 : ℝ) := cross_inner_left k r
    have rw' : inner ℝ r w = (0 : ℝ) := cross_inner_right k r
    have wn : ‖w‖ ^ 2 = (‖k‖ * ‖r‖) ^ 2 := by
      rw [hw, cross_norm_sq, real_inner_comm, rk]
      ring
    have wn' : ‖w‖ = ‖k‖ * ‖r‖ := (pow_left_inj₀ (norm_nonneg _) (by positivity) two_ne_zero).mp wn
    have hvw : inner ℝ v w = ‖k‖ ^ 2 := by
      rw [hw, inner_vec, norm_sq_vec, hk]
      simp [Spec.cross]
      ring
    refine ⟨(radial / ‖r‖) • r + (transverse / (‖k‖ * ‖r‖)) • w + (normal / ‖k‖) • k, ?_, ?_, ?_, ?_, ?_, ?_⟩
    · congr 1
      apply vec_eq <;>
      · simp only [PiLp.add_apply, PiLp.smul_apply, smul_eq_mul, Matrix.cons_val_zero, Matrix.cons_val_one, Matrix.cons_val]
        rw [hw, hk]
        simp only [Spec.cross, Matrix.cons_val_zero, Matrix.cons_val_one, Matrix.cons_val]
        field_simp
        try ring
    · rw [inner_add_left, inner_add_left, real_inner_smul_left, real_inner_smul_left, real_inner_smul_left,
        real_inner_self_eq_norm_sq, real_inner_comm, rw', real_inner_comm, rk]
      field_simp
      ring
    · rw [inner_add_left, inner_add_left, real_inner_smul_left, real_inner_smul_left, real_inner_smul_left,
        real_inner_self_eq_norm_sq, rw', kw, wn']
      field_simp
      ring
    · rw [inner_add_left, inner_add_left, real_inner_smul_left, real_inner_smul_left, real_inner_smul_left,
        real_inner_self_eq_norm_sq, rk, real_inner_comm, kw]
      field_simp
      ring
    · rw [← real_inner_self_eq_norm_sq]
      simp only [inner_add_left, inner_add_right, real_inner_smul_left, real_inner_smul_right,
        real_inner_self_eq_norm_sq]
      rw [rk, rw', kw, real_inner_comm r w, rw', real_inner_comm r k, rk, real_inner_comm k w, kw, norm_smul, norm_smul, norm_smul,
        mul_pow, mul_pow, mul_pow, wn, Real.norm_eq_abs, Real.norm_eq_abs, Real.norm_eq_abs, sq_abs, sq_abs, sq_abs]
      field_simp
      ring
    · rw [hvw]
      positivity

example : ∃ a, empirical 1e-9 2e-9 3e-9 !₂[7000, 0, 0] !₂[1, 7, 1] = .ok a := by
  obtain ⟨a, ha, -⟩ := (empirical_components 1e-9 2e-9 3e-9 !₂[7000, 0, 0] !₂[1, 7, 1]).2
    (fun h => by have := congrArg (fun v : Vec3 => v 2) h; simp [Spec.cross] at this)
  exact ⟨a, ha⟩

/-! ## Geopotential -/

theorem turn_turn (α β : ℝ) (x : Vec3) : Spec.turn α (Spec.turn β x) = Spec.turn (α + β) x := by
  apply vec_eq <;>
  · simp only [Spec.turn, Matrix.cons_val_zero, Matrix.cons_val_one, Matrix.cons_val, Real.cos_add, Real.sin_add]
    try ring

theorem turn_zero (x : Vec3) : Spec.turn 0 x = x := by
  apply vec_eq <;> simp [Spec.turn]

/-- **C121**: with tesseral terms the field turns with the Earth: the acceleration at a place turned by the angle of the
epoch is the acceleration of the body-fixed field, turned by the same angle.  Without them the field is used as it is. -/
theorem geopotential_turns {Γ : Type} (kernel : Γ → ℕ → ℕ → Vec3 → Except Err Vec3) (era : ℝ → ℝ) (degree order : ℕ)
    (jd : ℝ) (ctx : Context Γ) (g : Γ) (hg : ctx.gravity = some g) (x a : Vec3) (hk : kernel g degree order x = .ok a) :
    (0 < order → geopotential kernel era degree order (Spec.turn (era jd) x) jd ctx = .ok (Spec.turn (era jd) a)) ∧
    (order = 0 → geopotential kernel era degree order x jd ctx = .ok a) := by
  constructor
  · intro ho
    unfold geopotential requireGravity
    simp only [hg, if_pos ho]
    have e : (!₂[Real.cos (era jd) * (Spec.turn (era jd) x) 0 + Real.sin (era jd) * (Spec.turn (era jd) x) 1,
        -Real.sin (era jd) * (Spec.turn (era jd) x) 0 + Real.cos (era jd) * (Spec.turn (era jd) x) 1,
        (Spec.turn (era jd) x) 2] : Vec3) = x := by
      have := turn_turn (-era jd) (era jd) x
      rw [neg_add_cancel, turn_zero] at this
      conv_rhs => rw [← this]
      conv_rhs => unfold Spec.turn
      apply vec_eq <;>
      · simp only [Spec.turn, Matrix.cons_val_zero, Matrix.cons_val_one, Matrix.cons_val, Real.cos_neg, Real.sin_neg]
        try ring
    rw [e, hk]
    rfl
  · intro ho
    unfold geopotential requireGravity
    simp only [hg, ho, lt_irrefl, if_false]
    have : (!₂[x 0, x 1, x 2] : Vec3) = x := by apply vec_eq <;> rfl
    rw [this, ← ho, hk]

/-- **C121**: a missing field and an error of the kernel are reported. -/
theorem geopotential_errors {Γ : Type} (kernel : Γ → ℕ → ℕ → Vec3 → Except Err Vec3) (era : ℝ → ℝ) (degree order : ℕ)
    (r : Vec3) (jd : ℝ) (ctx : Context Γ) :
    (ctx.gravity = none → geopotential kernel era degree order r jd ctx = .error .gravityFieldUnavailable) ∧
    (∀ g e, ctx.gravity = some g → (∀ x, kernel g degree order x = .error e) →
      geopotential kernel era degree order r jd ctx = .error e) := by
  constructor
  · intro h
    unfold geopotential requireGravity
    simp only [h]
  · intro g e h hk
    unfold geopotential requireGravity
    simp only [h, hk, ite_self]

/-- **C121**: coefficients: the value of the table where it has one row for the degree and order, up to degree and order 4;
one for degree 0; otherwise zero. -/
theorem low_degree (table : List (ℕ × ℕ × ℝ × ℝ)) (n m : ℕ) :
    (cNormalized table 0 0 = 1 ∧ sNormalized table 0 0 = 0) ∧
    (4 < n ∨ n < m → cNormalized table n m = 0 ∧ sNormalized table n m = 0) ∧
    (∀ c s, n ≤ 4 → m ≤ n → 0 < n → (n, m, c, s) ∈ table → (∀ e ∈ table, e.1 = n → e.2.1 = m → e = (n, m, c, s)) →
      cNormalized table n m = c ∧ sNormalized table n m = s) ∧
    ((∀ e ∈ table, ¬ (e.1 = n ∧ e.2.1 = m)) → 0 < n → cNormalized table n m = 0 ∧ sNormalized table n m = 0) := by
  refine ⟨⟨by simp [cNormalized, lookup], by simp [sNormalized, lookup]⟩, ?_, ?_, ?_⟩
  · intro h
    simp [cNormalized, sNormalized, h]
  · intro c s h4 hm h0 hmem huniq
    have hf : table.find? (fun e => e.1 == n && e.2.1 == m) = some (n, m, c, s) := by
      cases hq : table.find? (fun e => e.1 == n && e.2.1 == m) with
      | none =>
        have := List.find?_eq_none.mp hq _ hmem
        simp at this
      | some e =>
        have h1 := List.find?_some hq
        simp only [Bool.and_eq_true, beq_iff_eq] at h1
        rw [huniq e (List.mem_of_find?_eq_some hq) h1.1 h1.2]
    unfold cNormalized sNormalized lookup
    rw [if_neg (by omega), if_neg (by omega), if_neg (by omega), hf]
    exact ⟨rfl, rfl⟩
  · intro h h0
    have hf : table.find? (fun e => e.1 == n && e.2.1 == m) = none := by
      rw [List.find?_eq_none]
      intro e he
      simpa using h e he
    have h00 : ¬ (n = 0 ∧ m = 0) := by omega
    unfold cNormalized sNormalized lookup
    simp only [if_neg h00, hf, ite_self, and_self]

/-- **C121**: the point mass has the coefficient one at degree 0 and no others. -/
theorem two_body_coefficients (n m : ℕ) : twoBodyC 0 0 = 1 ∧ (0 < n → twoBodyC n m = 0) := by
  unfold twoBodyC
  exact ⟨by simp, fun h => by rw [if_neg (by omega)]⟩

end Verif.Forces
