import Verif.Sky.Basic
import Verif.MeanElements.Spec
import Verif.MeanElements.Kepler

/-!
# Propagation of two-line elements: properties
-/

namespace Verif.MeanElements

open Real

/-! ## C184: Kepler's equation -/

/-- C184: every mean anomaly within a turn, every eccentricity up to 0.9999: there is an answer within the 32 steps, the
equation has exactly one solution, and the answer is that close to it. -/
theorem kepler {M e : ℝ} (he : 0 ≤ e) (he9 : e ≤ 0.9999) (h0 : 0 ≤ M) (hM : M < 2 * π) :
    ∃ E, solve M e = some E ∧ |E - e * sin E - M| ≤ 1e-26 ∧ ∃! r, r - e * sin r = M ∧ (1 - e) * |E - r| ≤ 1e-26 := by
  have he1 : e < 1 := by norm_num at he9; linarith
  obtain ⟨E, hE⟩ := solve_converges he he9 h0 hM
  obtain ⟨h1, h2⟩ := solve_sound he he1 hE
  refine ⟨E, hE, h1, ?_⟩
  have hr : ∃ r, Root M e r := by
    rcases le_total M π with h | h
    · obtain ⟨r, _, _, hr⟩ := root_exists he h0 h
      exact ⟨r, hr⟩
    · obtain ⟨r, _, _, hr⟩ := root_exists he (M := 2 * π - M) (by linarith) (by linarith)
      refine ⟨2 * π - r, ?_⟩
      unfold Root at hr ⊢
      rw [sin_two_pi_sub]
      linarith
  obtain ⟨r, hr⟩ := hr
  refine ⟨r, ⟨hr, h2 r hr⟩, fun y hy => root_unique he he1 hy.1 hr⟩

/-- Answers are right whenever there are any, also beyond 0.9999. -/
theorem kepler_sound {M e E : ℝ} (he : 0 ≤ e) (he1 : e < 1) (h : solve M e = some E) :
    |E - e * sin E - M| ≤ 1e-26 ∧ ∀ r, r - e * sin r = M → (1 - e) * |E - r| ≤ 1e-26 :=
  ⟨(solve_sound he he1 h).1, fun r hr => (solve_sound he he1 h).2 r hr⟩

/-- A circular orbit: one step, nothing to correct. -/
example (M : ℝ) : solve M 0 = some M := by
  unfold solve
  rw [if_pos (by norm_num), newton]
  norm_num

/-- A Molniya orbit, at a quarter turn of mean anomaly. -/
example : ∃ E, solve (π / 2) 0.74 = some E :=
  (kepler (by norm_num) (by norm_num) (by positivity) (by linarith [pi_pos])).imp fun _ h => h.1

/-! ## C185: which elements are taken -/

theorem motion_at_epoch (el : Elements) : motionRad el 0 = el.motion * (2 * π) / 86400 := by
  unfold motionRad
  simp

theorem axis_pos {mu n : ℝ} (hmu : 0 < mu) (hn : 0 < n) : 0 < axis mu n :=
  rpow_pos_of_pos (div_pos hmu (mul_pos hn hn)) _

/-- Kepler's third law. -/
theorem axis_cubed {mu n : ℝ} (hmu : 0 < mu) (hn : 0 < n) : axis mu n ^ 3 * n ^ 2 = mu := by
  unfold axis
  rw [← rpow_natCast, ← rpow_mul (div_pos hmu (mul_pos hn hn)).le]
  norm_num
  field_simp

/-- C185: the published constants: gravitational parameter (km³/s²), equatorial radius (km) and J2 of the world geodetic
systems of 1972 and 1984. -/
theorem constants_published : ((constants .wgs72).mu = 398600.8 ∧ (constants .wgs72).radius = 6378.135 ∧
      (constants .wgs72).j2 = 0.001082616) ∧ constants .wgs72Iau = constants .wgs72 ∧
    (constants .wgs84).mu = 398600.5 ∧ (constants .wgs84).radius = 6378.137 ∧
      (constants .wgs84).j2 = 0.00108262998905 := by
  refine ⟨⟨?_, ?_, ?_⟩, rfl, ?_, ?_, ?_⟩ <;> norm_num [constants]

theorem mu_pos (g : Gravity) : 0 < (constants g).mu := by cases g <;> norm_num [constants]

theorem validate_ok {el : Elements} (g : Gravity) (h1 : el.ecc < 1) (hn : 0 < el.motion) :
    validate el (constants g) = .ok () := by
  have hp : 0 < motionRad el 0 := by
    rw [motion_at_epoch]
    have := pi_pos
    positivity
  unfold validate
  simp only
  rw [if_neg (not_le.mpr hp), if_neg (not_le.mpr (mul_pos (axis_pos (mu_pos g) hp) (by linarith)))]

/-- C185: a propagator is made from exactly the elements of 1950 and later with eccentricity in `[0, 1)` and positive mean
motion, and holds these elements, in radians. -/
theorem accept_iff (t : Tle) (g : Gravity) (el : Elements) (c : Constants) :
    fromTle t g = .ok (el, c) ↔ 1950 ≤ t.year ∧ (∃ e n, t.ecc = some e ∧ 0 ≤ e ∧ e < 1 ∧ t.motion = some n ∧ 0 < n ∧
      el = ⟨t.inc * (π / 180), t.raan * (π / 180), e, t.argp * (π / 180), t.anomaly * (π / 180), n, t.motionDot,
        t.motionDdot, t.bstar⟩) ∧ c = constants g := by
  constructor
  · intro h
    unfold fromTle elementsOf at h
    by_cases hy : t.year < 1950
    · rw [if_pos hy] at h; cases h
    rw [if_neg hy] at h
    cases hE : t.ecc with
    | none => rw [hE] at h; cases h
    | some e =>
      rw [hE] at h
      by_cases he : 0 ≤ e ∧ e < 1
      · simp only [he, not_true_eq_false, and_self, if_false] at h
        cases hN : t.motion with
        | none => rw [hN] at h; cases h
        | some n =>
          rw [hN] at h
          by_cases hn : n ≤ 0
          · simp only [if_pos hn] at h; cases h
          · simp only [if_neg hn] at h
            rw [validate_ok g he.2 (not_le.mp hn)] at h
            injection h with h
            injection h with h1 h2
            exact ⟨by omega, ⟨e, n, rfl, he.1, he.2, rfl, not_le.mp hn, h1.symm⟩, h2.symm⟩
      · simp only [he, not_false_eq_true, if_true] at h; cases h
  · rintro ⟨hy, ⟨e, n, hE, he0, he1, hN, hn, rfl⟩, rfl⟩
    have : elementsOf t = .ok ⟨t.inc * (π / 180), t.raan * (π / 180), e, t.argp * (π / 180), t.anomaly * (π / 180), n,
        t.motionDot, t.motionDdot, t.bstar⟩ := by
      unfold elementsOf
      rw [if_neg (by omega), hE]
      simp only [he0, he1, and_self, not_true_eq_false, if_false]
      rw [hN]
      simp only [if_neg (not_le.mpr hn)]
      rfl
    unfold fromTle
    rw [this]
    simp only
    rw [validate_ok g he1 hn]

/-- Everything else is an error; there is no third outcome. -/
theorem reject_iff (t : Tle) (g : Gravity) : (∃ x, fromTle t g = .error x) ↔
    ¬ (1950 ≤ t.year ∧ ∃ e n, t.ecc = some e ∧ 0 ≤ e ∧ e < 1 ∧ t.motion = some n ∧ 0 < n) := by
  cases h : fromTle t g with
  | ok p =>
    obtain ⟨el, c⟩ := p
    obtain ⟨h1, ⟨e, n, a, b, c, d, f, _⟩, _⟩ := (accept_iff t g el c).mp h
    simp only [reduceCtorEq, exists_false, false_iff, not_not]
    exact ⟨h1, e, n, a, b, c, d, f⟩
  | error x =>
    simp only [Except.error.injEq, exists_eq', true_iff]
    rintro ⟨h1, e, n, a, b, c, d, f⟩
    have := (accept_iff t g _ _).mpr ⟨h1, ⟨e, n, a, b, c, d, f, rfl⟩, rfl⟩
    rw [h] at this
    cases this

/-- A space station. -/
noncomputable def station : Tle := ⟨2024, 51.64, 200, some 0.0007, 90, 30, some 15.5, 0.0001, 0, 0.0002⟩

example : ∃ el c, fromTle station .wgs72 = .ok (el, c) :=
  ⟨_, _, (accept_iff station .wgs72 _ _).mpr ⟨by norm_num [station],
    ⟨0.0007, 15.5, rfl, by norm_num, by norm_num, rfl, by norm_num, rfl⟩, rfl⟩⟩

/-! ## C186: the states are on the orbit -/

namespace Spec

theorem dot_turnX (t : ℝ) (a b : V) : dot (turnX t a) (turnX t b) = dot a b := by
  unfold dot turnX
  simp only
  linear_combination (a.2.1 * b.2.1 + a.2.2 * b.2.2) * sin_sq_add_cos_sq t

theorem dot_turnZ (t : ℝ) (a b : V) : dot (turnZ t a) (turnZ t b) = dot a b := by
  unfold dot turnZ
  simp only
  linear_combination (a.1 * b.1 + a.2.1 * b.2.1) * sin_sq_add_cos_sq t

theorem cross_turnX (t : ℝ) (a b : V) : cross (turnX t a) (turnX t b) = turnX t (cross a b) := by
  unfold cross turnX
  refine Prod.ext ?_ (Prod.ext ?_ ?_) <;> simp only
  · linear_combination (a.2.1 * b.2.2 - a.2.2 * b.2.1) * sin_sq_add_cos_sq t
  · ring
  · ring

theorem cross_turnZ (t : ℝ) (a b : V) : cross (turnZ t a) (turnZ t b) = turnZ t (cross a b) := by
  unfold cross turnZ
  refine Prod.ext ?_ (Prod.ext ?_ ?_) <;> simp only
  · ring
  · ring
  · linear_combination (a.1 * b.2.1 - a.2.1 * b.1) * sin_sq_add_cos_sq t

theorem dot_orient (o i w : ℝ) (a b : V) : dot (orient o i w a) (orient o i w b) = dot a b := by
  unfold orient
  rw [dot_turnZ, dot_turnX, dot_turnZ]

theorem cross_orient (o i w : ℝ) (a b : V) : cross (orient o i w a) (orient o i w b) = orient o i w (cross a b) := by
  unfold orient
  rw [cross_turnZ, cross_turnX, cross_turnZ]

theorem scale_orient (o i w k : ℝ) (a : V) : scale k (orient o i w a) = orient o i w (scale k a) := by
  unfold orient turnX turnZ scale
  refine Prod.ext ?_ (Prod.ext ?_ ?_) <;> simp only <;> ring

theorem sub_orient (o i w : ℝ) (a b : V) : sub (orient o i w a) (orient o i w b) = orient o i w (sub a b) := by
  unfold orient turnX turnZ sub
  refine Prod.ext ?_ (Prod.ext ?_ ?_) <;> simp only <;> ring

end Spec

open Spec

theorem rotate_eq (o i w x y : ℝ) : rotate o i w x y = orient o i w (x, y, 0) := by
  unfold rotate orient turnX turnZ
  refine Prod.ext ?_ (Prod.ext ?_ ?_) <;> simp only <;> ring

/-- The states the code puts together, for any eccentric anomaly. -/
theorem state_on_orbit {s : Secular} {mu e inc E : ℝ} (ha : 0 < s.a) (hn : 0 < s.n) (h3 : s.a ^ 3 * s.n ^ 2 = mu)
    (he : 0 ≤ e) (he1 : e < 1) :
    OnOrbit mu s.a e inc s.raan s.argp (state s e inc E).1 (state s e inc E).2 ∧
      At s.a e E s.raan inc s.argp s.n (state s e inc E).1 (state s e inc E).2 := by
  obtain ⟨n, a, o, w, m⟩ := s
  simp only at ha hn h3 ⊢
  have hq : 0 ≤ 1 - e * e := by nlinarith
  have hQ := sq_sqrt hq
  have hcs := sin_sq_add_cos_sq E
  have hd : 0 < 1 - e * cos E := by nlinarith [cos_le_one E, neg_one_le_cos E]
  have hmu : mu ≠ 0 := by rw [← h3]; positivity
  unfold state
  simp only [rotate_eq]
  generalize hQd : sqrt (1 - e * e) = Q at hQ ⊢
  have hQ0 : 0 ≤ Q := by rw [← hQd]; exact sqrt_nonneg _
  generalize hC : cos E = C at hcs hd ⊢
  generalize hS : sin E = S at hcs ⊢
  have hlen : len (orient o inc w (a * (C - e), a * Q * S, 0)) = a * (1 - e * C) := by
    unfold len
    rw [dot_orient]
    have : dot (a * (C - e), a * Q * S, 0) (a * (C - e), a * Q * S, 0) = (a * (1 - e * C)) ^ 2 := by
      unfold dot
      simp only
      linear_combination a ^ 2 * S ^ 2 * hQ + a ^ 2 * (1 - e * e) * hcs
    rw [this, sqrt_sq (mul_pos ha hd).le]
  generalize hw : n / (1 - e * C) = w'
  have hn' : n = w' * (1 - e * C) := by rw [← hw]; field_simp
  clear hw
  have hw0 : 0 < w' := by
    by_contra hcon
    rw [not_lt] at hcon
    rw [hn'] at hn
    nlinarith
  have hcr : cross (a * (C - e), a * Q * S, (0:ℝ)) (-a * S * w', a * Q * C * w', 0) = (0, 0, a ^ 2 * n * Q) := by
    unfold cross
    refine Prod.ext ?_ (Prod.ext ?_ ?_) <;> simp only
    · ring
    · ring
    · linear_combination a ^ 2 * Q * w' * hcs - a ^ 2 * Q * hn'
  refine ⟨⟨?_, ?_, ?_⟩, ⟨?_, ?_, ?_⟩⟩
  · rw [hlen, dot_orient]
    have hx : mu / (a * (1 - e * C)) = a ^ 2 * n * w' := by
      rw [div_eq_iff (mul_pos ha hd).ne', ← h3]
      linear_combination a ^ 3 * n * hn'
    have hy : -mu / (2 * a) = -(a ^ 2 * n ^ 2 / 2) := by
      rw [← h3]
      field_simp
    rw [hx, hy]
    unfold dot
    simp only
    rw [hn']
    linear_combination (a ^ 2 * w' ^ 2 / 2) * (C ^ 2 * hQ + hcs)
  · rw [cross_orient, hcr, scale_orient]
    congr 1
    have : sqrt (mu * a * (1 - e ^ 2)) = a ^ 2 * n * Q := by
      rw [← h3, show a ^ 3 * n ^ 2 * a * (1 - e ^ 2) = (a ^ 2 * n * Q) ^ 2 by linear_combination -(a ^ 4 * n ^ 2) * hQ]
      exact sqrt_sq (by positivity)
    rw [this]
    unfold scale
    simp
  · rw [cross_orient, hcr, cross_orient, scale_orient, hlen, scale_orient, sub_orient, scale_orient]
    congr 1
    have hx : 1 / mu * (a * Q * C * w' * (a ^ 2 * n * Q)) = Q ^ 2 * C / (1 - e * C) := by
      rw [← h3, hn']
      field_simp
    have hy : 1 / mu * (a * S * w' * (a ^ 2 * n * Q)) = Q * S / (1 - e * C) := by
      rw [← h3, hn']
      field_simp
    have h1 : 1 / (a * (1 - e * C)) * (a * (C - e)) = (C - e) / (1 - e * C) := by field_simp
    have h2 : 1 / (a * (1 - e * C)) * (a * Q * S) = Q * S / (1 - e * C) := by field_simp
    unfold cross scale sub
    refine Prod.ext ?_ (Prod.ext ?_ ?_) <;> simp only
    · rw [zero_mul, sub_zero, hx, h1, ← sub_div, div_eq_iff hd.ne']
      linear_combination C * hQ
    · rw [h2, ← hy]
      ring
    · ring
  · rw [hC]; exact hlen
  · rw [dot_orient, hC]
    unfold dot
    simp only
    ring
  · rw [dot_orient, hS]
    unfold dot
    simp only
    rw [hn']
    linear_combination (a ^ 2 * C * S * w') * hQ

/-- C186: whenever a state is returned, it is on the Keplerian orbit with the eccentricity and inclination of the elements,
the size that belongs to the mean motion of that moment, and the node, perigee and anomaly moved on to that moment; and the
position on the orbit is that of the mean anomaly, to within `10⁻²⁶`. -/
theorem propagate_on_orbit {el : Elements} {c : Constants} {minutes : ℝ} {r v : Vec} (hmu : 0 < c.mu)
    (he : 0 ≤ el.ecc) (he1 : el.ecc < 1) (h : propagate el c minutes = .ok (r, v)) :
    ∃ n a raan argp E, 0 < n ∧ n = motionRad el (minutes / 1440) ∧ 0 < a ∧ a ^ 3 * n ^ 2 = c.mu ∧
      raan = el.raan - 3 / 2 * c.j2 * (c.radius / (a * (1 - el.ecc ^ 2))) ^ 2 * n * cos el.inc * (60 * minutes) ∧
      argp = el.argp + 3 / 4 * c.j2 * (c.radius / (a * (1 - el.ecc ^ 2))) ^ 2 * n * (5 * cos el.inc ^ 2 - 1) * (60 * minutes) ∧
      OnOrbit c.mu a el.ecc el.inc raan argp r v ∧ At a el.ecc E raan el.inc argp n r v ∧
      |E - el.ecc * sin E - (secular el c minutes).m| ≤ 1e-26 := by
  unfold propagate at h
  simp only at h
  by_cases hn : (secular el c minutes).n ≤ 0
  · rw [if_pos hn] at h; cases h
  rw [if_neg hn] at h
  rw [not_le] at hn
  split at h
  · cases h
  · cases hs : solve (secular el c minutes).m el.ecc with
    | none => rw [hs] at h; cases h
    | some E =>
      rw [hs] at h
      injection h with h
      have ha : 0 < (secular el c minutes).a := axis_pos hmu hn
      have h3 : (secular el c minutes).a ^ 3 * (secular el c minutes).n ^ 2 = c.mu := axis_cubed hmu hn
      obtain ⟨o1, o2⟩ := state_on_orbit (inc := el.inc) (E := E) ha hn h3 he he1
      rw [h] at o1 o2
      refine ⟨_, _, _, _, E, hn, rfl, ha, h3, ?_, ?_, o1, o2, (solve_sound he he1 hs).1⟩
      · unfold secular
        simp only
        ring
      · unfold secular
        simp only
        ring

/-- The mean anomaly that is used, a turn taken off where needed: that of the epoch, moved on by the integral of the
printed mean motion and by what the oblateness adds. -/
theorem anomaly (el : Elements) (c : Constants) (minutes : ℝ) :
    ∃ φ : ℝ → ℝ, φ 0 = 0 ∧
      (∀ d, HasDerivAt φ (86400 * motionRad el d + 2 * π * (1e-5 * el.bstar * |d|)) d) ∧
      0 ≤ (secular el c minutes).m ∧ (secular el c minutes).m < 2 * π ∧
      ∃ k : ℤ, (secular el c minutes).m = el.anomaly + φ (minutes / 1440) +
        3 / 4 * c.j2 * (c.radius / (axis c.mu (motionRad el (minutes / 1440)) * (1 - el.ecc ^ 2))) ^ 2
          * motionRad el (minutes / 1440) * sqrt (1 - el.ecc ^ 2) * (3 * cos el.inc ^ 2 - 1) * (60 * minutes)
        + k * (2 * π) := by
  refine ⟨fun d => 2 * π * (el.motion * d + 0.5 * el.motionDot * d * d + el.motionDdot * d * d * d / 6), by simp, ?_,
    Sky.Props.remTau_nonneg _, Sky.Props.remTau_lt _, ?_⟩
  · intro d
    have h1 : HasDerivAt (fun d : ℝ => d) 1 d := hasDerivAt_id d
    have h2 := (((h1.const_mul el.motion).add ((h1.const_mul (0.5 * el.motionDot)).mul h1)).add
      ((((h1.const_mul el.motionDdot).mul h1).mul h1).div_const 6)).const_mul (2 * π)
    refine HasDerivAt.congr_deriv h2 ?_
    unfold motionRad
    simp only [Pi.mul_apply]
    ring
  · obtain ⟨k, hk⟩ := Sky.Props.remTau_eq (el.anomaly + 2 * π * (el.motion * (minutes / 1440)
      + 0.5 * el.motionDot * (minutes / 1440) * (minutes / 1440)
      + el.motionDdot * (minutes / 1440) * (minutes / 1440) * (minutes / 1440) / 6) +
      3 / 4 * c.j2 * (c.radius / (axis c.mu (motionRad el (minutes / 1440)) * (1 - el.ecc ^ 2))) ^ 2
          * motionRad el (minutes / 1440) * sqrt (1 - el.ecc ^ 2) * (3 * cos el.inc ^ 2 - 1) * (60 * minutes))
    refine ⟨-k, ?_⟩
    have hm : (secular el c minutes).m = Sky.remTau (el.anomaly + 2 * π * (el.motion * (minutes / 1440)
      + 0.5 * el.motionDot * (minutes / 1440) * (minutes / 1440)
      + el.motionDdot * (minutes / 1440) * (minutes / 1440) * (minutes / 1440) / 6) +
      3 / 4 * c.j2 * (c.radius / (axis c.mu (motionRad el (minutes / 1440)) * (1 - el.ecc ^ 2))) ^ 2
          * motionRad el (minutes / 1440) * sqrt (1 - el.ecc ^ 2) * (3 * cos el.inc ^ 2 - 1) * (60 * minutes)) := by
      unfold secular
      simp only
      rw [show 1 - el.ecc * el.ecc = 1 - el.ecc ^ 2 by ring]
      congr 1
      ring
    rw [hm, hk]
    push_cast
    ring

/-- C187: with an eccentricity up to 0.9999, the only reason to fail is a mean motion that is no longer positive. -/
theorem propagate_fails_iff {el : Elements} {c : Constants} (minutes : ℝ) (hmu : 0 < c.mu) (he : 0 ≤ el.ecc)
    (he9 : el.ecc ≤ 0.9999) :
    (∃ x, propagate el c minutes = .error x) ↔ motionRad el (minutes / 1440) ≤ 0 := by
  have hn : (secular el c minutes).n = motionRad el (minutes / 1440) := rfl
  unfold propagate
  simp only
  by_cases h : (secular el c minutes).n ≤ 0
  · rw [if_pos h, ← hn]
    exact ⟨fun _ => h, fun _ => ⟨_, rfl⟩⟩
  · rw [if_neg h, ← hn]
    have h' := not_le.mp h
    have ha : 0 < (secular el c minutes).a := axis_pos hmu h'
    have hq : 0 < 1 - el.ecc * el.ecc := by norm_num at he9; nlinarith
    rw [if_neg (not_le.mpr (mul_pos ha hq))]
    obtain ⟨E, hE⟩ := solve_converges he he9 (M := (secular el c minutes).m) (Sky.Props.remTau_nonneg _) (Sky.Props.remTau_lt _)
    rw [hE]
    simp [h]

/-- The elements of the epoch are those printed. -/
theorem at_epoch (el : Elements) (c : Constants) :
    secular el c 0 = ⟨el.motion * (2 * π) / 86400, axis c.mu (el.motion * (2 * π) / 86400), el.raan, el.argp,
      Sky.remTau el.anomaly⟩ := by
  unfold secular
  simp only [zero_div, motion_at_epoch]
  simp

/-- A day number and the minutes since the epoch give the same. -/
theorem at_minutes (el : Elements) (c : Constants) (epoch minutes : ℝ) :
    propagateAt el c epoch (epoch + minutes / 1440) = propagateMinutes el c epoch minutes := by
  unfold propagateAt propagateMinutes
  rw [show (epoch + minutes / 1440 - epoch) * 1440 = minutes by ring]

/-- The station can be propagated for two weeks, either way. -/
example (minutes : ℝ) (h : |minutes| ≤ 20000) : ∃ el c s, fromTle station .wgs72 = .ok (el, c) ∧ propagate el c minutes = .ok s := by
  refine ⟨⟨deg 51.64, deg 200, 0.0007, deg 90, deg 30, 15.5, 0.0001, 0, 0.0002⟩, constants .wgs72, ?_⟩
  have h1 : fromTle station .wgs72 = .ok (⟨deg 51.64, deg 200, 0.0007, deg 90, deg 30, 15.5, 0.0001, 0, 0.0002⟩, constants .wgs72) :=
    (accept_iff station .wgs72 _ _).mpr ⟨by norm_num [station],
      ⟨0.0007, 15.5, rfl, by norm_num, by norm_num, rfl, by norm_num, rfl⟩, rfl⟩
  have h2 := (propagate_fails_iff (el := ⟨deg 51.64, deg 200, 0.0007, deg 90, deg 30, 15.5, 0.0001, 0, 0.0002⟩)
    (c := constants .wgs72) minutes (mu_pos _) (by norm_num) (by norm_num)).not.mpr (by
      rw [not_le]
      have hb := abs_le.mp h
      have : 0 ≤ |minutes / 1440| := abs_nonneg _
      have h3 : |minutes / 1440| ≤ 14 := by rw [abs_le]; constructor <;> linarith
      have hpos : 0 < 15.5 + 0.0001 * (minutes / 1440) + 0.5 * 0 * (minutes / 1440) * (minutes / 1440)
          - 1.0e-5 * 0.0002 * |minutes / 1440| := by
        norm_num at *
        linarith
      unfold motionRad
      have := pi_pos
      positivity)
  cases h3 : propagate ⟨deg 51.64, deg 200, 0.0007, deg 90, deg 30, 15.5, 0.0001, 0, 0.0002⟩ (constants .wgs72) minutes with
  | error x => exact absurd ⟨x, h3⟩ h2
  | ok s => exact ⟨s, h1, rfl⟩

/-! ## C188: drag -/

/-- The mean motion that is used is not that of the printed elements: away from the epoch the derivatives count a half and
a sixth of what the format says. -/
theorem motion_not_printed (el : Elements) (hb : el.bstar = 0) (d : ℝ) :
    motionRad el d = printedMotion el.motion el.motionDot el.motionDdot d * (2 * π) / 86400 ↔
      el.motionDot * d + 5 / 2 * el.motionDdot * d ^ 2 = 0 := by
  unfold motionRad printedMotion
  rw [hb]
  have := pi_pos
  constructor
  · intro h
    have h2 : (el.motion + el.motionDot * d + 0.5 * el.motionDdot * d * d - 1.0e-5 * 0 * |d|) * (2 * π)
        = (el.motion + (2 * el.motionDot) * d + (6 * el.motionDdot) * d ^ 2 / 2) * (2 * π) := by linarith
    have h3 := mul_right_cancel₀ (by positivity) h2
    linarith
  · intro h
    congr 2
    linarith

/-- The drag term takes mean motion away whether one goes forward or back: a satellite with drag is put on a larger orbit
than at the epoch, both before and after it. -/
theorem drag_raises (el : Elements) {mu d : ℝ} (hmu : 0 < mu) (h1 : el.motionDot = 0) (h2 : el.motionDdot = 0)
    (hb : 0 < el.bstar) (hd : d ≠ 0) (hn : 0 < motionRad el d) :
    axis mu (motionRad el 0) < axis mu (motionRad el d) := by
  have hlt : motionRad el d < motionRad el 0 := by
    unfold motionRad
    rw [h1, h2]
    have := pi_pos
    have h3 : 0 < |d| := abs_pos.mpr hd
    have h4 : 0 < 1.0e-5 * el.bstar * |d| := by positivity
    have h5 : 0 < 1.0e-5 * el.bstar * |d| * (2 * π) := by positivity
    simp only [zero_mul, mul_zero, add_zero, abs_zero, sub_zero]
    rw [div_lt_div_iff_of_pos_right (by norm_num)]
    linarith
  unfold axis
  apply rpow_lt_rpow
  · exact (div_pos hmu (mul_pos (hn.trans hlt) (hn.trans hlt))).le
  · exact div_lt_div_of_pos_left hmu (mul_pos hn hn) (mul_lt_mul'' hlt hlt hn.le hn.le)
  · norm_num

/-- Half a year of a satellite with drag. -/
example : axis 398600.8 (motionRad ⟨0, 0, 0, 0, 0, 15, 0, 0, 0.001⟩ 0)
    < axis 398600.8 (motionRad ⟨0, 0, 0, 0, 0, 15, 0, 0, 0.001⟩ 180) := by
  apply drag_raises _ (by norm_num) rfl rfl (by norm_num) (by norm_num)
  unfold motionRad
  have := pi_pos
  norm_num
  positivity

/-- The two models of 1972 are the same. -/
theorem models_of_1972 (t : Tle) : fromTle t .wgs72Iau = fromTle t .wgs72 := rfl

end Verif.MeanElements
