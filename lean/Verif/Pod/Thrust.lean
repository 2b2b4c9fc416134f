import Verif.Pod.Quality
import Mathlib.Analysis.SpecialFunctions.Log.Deriv

/-
Thrust arcs, the low-thrust ledger and periodic empirical accelerations.
-/
namespace Verif.Pod

theorem radius_eq (v : Vec3) : Real.sqrt (v 0 * v 0 + v 1 * v 1 + v 2 * v 2) = ‖v‖ := by
  rw [EuclideanSpace.norm_eq, Fin.sum_univ_three]
  simp [pow_two]

theorem vec_eta (c : ℝ) (v : Vec3) : (!₂[c * v 0, c * v 1, c * v 2] : Vec3) = c • v := by
  ext i; fin_cases i <;> simp

/-! ### Thrust arcs -/

/-- The constructor accepts exactly the documented arguments and normalises the direction. -/
theorem make_ok_iff {start stop thrust isp : ℝ} {d : Vec3} {a : ThrustArc} :
    ThrustArc.make start stop thrust isp d = .ok a ↔
      0 < isp ∧ start < stop ∧ d ≠ 0 ∧ a = ⟨start, stop, thrust, isp, (‖d‖)⁻¹ • d⟩ := by
  unfold ThrustArc.make
  by_cases h1 : isp ≤ 0
  · simp only [h1, if_true, reduceCtorEq, false_iff, not_and]
    intro h; exact absurd h (not_lt.mpr h1)
  rw [if_neg h1]
  by_cases h2 : start < stop
  · simp only [h2, not_true_eq_false, if_false]
    rw [radius_eq]
    by_cases h3 : d = 0
    · simp [h3]
    · have hp : 0 < ‖d‖ := norm_pos_iff.mpr h3
      simp only [hp, not_true_eq_false, if_false, Except.ok.injEq]
      have : (!₂[d 0 / ‖d‖, d 1 / ‖d‖, d 2 / ‖d‖] : Vec3) = (‖d‖)⁻¹ • d := by
        rw [← vec_eta]; simp only [div_eq_inv_mul]
      rw [this]
      simp only [not_le.mp h1, h3, true_and, ne_eq, not_false_eq_true]
      exact eq_comm
  · simp [h2]

/-- The size of the thrust acceleration. -/
theorem thrustAcceleration_ok {start stop thrust isp mass t : ℝ} {d : Vec3} {a : ThrustArc}
    (h : ThrustArc.make start stop thrust isp d = .ok a) (hm : 0 < mass) :
    (start ≤ t ∧ t < stop → thrustAcceleration a mass t = .ok ((thrust / mass) • ((‖d‖)⁻¹ • d))) ∧
    (¬ (start ≤ t ∧ t < stop) → thrustAcceleration a mass t = .ok 0) := by
  obtain ⟨h1, h2, h3, rfl⟩ := make_ok_iff.mp h
  constructor
  · intro ht
    unfold thrustAcceleration
    have : (ThrustArc.Active ⟨start, stop, thrust, isp, (‖d‖)⁻¹ • d⟩ t) := ht
    rw [if_neg (not_le.mpr hm), if_neg (not_not.mpr this)]
    simp only
    rw [vec_eta]
  · intro ht
    unfold thrustAcceleration
    have : ¬ (ThrustArc.Active ⟨start, stop, thrust, isp, (‖d‖)⁻¹ • d⟩ t) := ht
    rw [if_neg (not_le.mpr hm), if_pos this]
    congr 1
    ext i; fin_cases i <;> simp

theorem unit_norm {d : Vec3} (h : d ≠ 0) : ‖(‖d‖)⁻¹ • d‖ = 1 := by
  rw [norm_smul, norm_inv, norm_norm]
  exact inv_mul_cancel₀ (norm_ne_zero_iff.mpr h)

/-! ### The ledger -/

/-- The two outcomes of an entry. -/
theorem append_cases (s : Ledger) (a : ThrustArc) :
    (∃ e, s.append a = (s, .error e)) ∨
    (0 < a.stop - a.start ∧ 0 < a.isp ∧ 0 < s.mass - a.thrust / (a.isp * g0) * (a.stop - a.start) ∧
      ∃ r : ThrustRecord, r.massBefore = s.mass ∧ r.duration = a.stop - a.start ∧
        r.propellant = a.thrust / (a.isp * g0) * (a.stop - a.start) ∧
        r.deltaV = a.isp * g0 * Real.log (s.mass / (s.mass - r.propellant)) ∧
        s.append a = (⟨s.mass - r.propellant, s.deltaV + r.deltaV, s.propellant + r.propellant, s.records ++ [r]⟩, .ok r)) := by
  unfold Ledger.append
  by_cases h1 : a.stop - a.start ≤ 0
  · left; exact ⟨.interval, by simp only [h1, if_true]⟩
  simp only [h1, if_false]
  unfold massFlowRate
  by_cases h2 : a.isp ≤ 0
  · left; exact ⟨_, by simp only [h2, if_true]; rfl⟩
  simp only [h2, if_false]
  by_cases h3 : s.mass - a.thrust / (a.isp * g0) * (a.stop - a.start) ≤ 0
  · left; exact ⟨_, by simp only [h3, if_true]; rfl⟩
  simp only [h3, if_false]
  right
  exact ⟨not_le.mp h1, not_le.mp h2, not_le.mp h3, ⟨_, _, _, _⟩, rfl, rfl, rfl, rfl, rfl⟩

/-- A ledger after any number of entries, failed ones included. -/
noncomputable def Ledger.run (s : Ledger) (l : List ThrustArc) : Ledger := l.foldl (fun s a => (s.append a).1) s

/-- The records belong to one tank: each starts with the mass the previous one left, down to the present mass. -/
def Chain : ℝ → List ThrustRecord → ℝ → Prop
  | m, [], m' => m = m'
  | m, r :: t, m' => r.massBefore = m ∧ Chain (m - r.propellant) t m'

theorem chain_append {m m' : ℝ} {l : List ThrustRecord} (h : Chain m l m') (r : ThrustRecord) (hr : r.massBefore = m') :
    Chain m (l ++ [r]) (m' - r.propellant) := by
  induction l generalizing m with
  | nil => simp only [Chain] at h; subst h; exact ⟨hr, rfl⟩
  | cons a t ih => exact ⟨h.1, ih h.2⟩

/-- Books that balance. -/
structure Balanced (m0 : ℝ) (s : Ledger) : Prop where
  positive : 0 < s.mass
  mass : s.mass + s.propellant = m0
  propellant : s.propellant = (s.records.map ThrustRecord.propellant).sum
  deltaV : s.deltaV = (s.records.map ThrustRecord.deltaV).sum
  chain : Chain m0 s.records s.mass

theorem append_balanced {m0 : ℝ} {s : Ledger} (h : Balanced m0 s) (a : ThrustArc) : Balanced m0 (s.append a).1 := by
  rcases append_cases s a with ⟨e, h'⟩ | ⟨_, _, hp, r, r1, _, r3, _, h'⟩
  · rw [h']; exact h
  · rw [h']
    refine ⟨by rw [← r3] at hp; exact hp, ?_, ?_, ?_, ?_⟩
    · have := h.mass; simp only; linarith
    · simp only [List.map_append, List.map_cons, List.map_nil, List.sum_append, List.sum_cons, List.sum_nil, add_zero]
      rw [h.propellant]
    · simp only [List.map_append, List.map_cons, List.map_nil, List.sum_append, List.sum_cons, List.sum_nil, add_zero]
      rw [h.deltaV]
    · exact chain_append h.chain r r1

theorem run_balanced {m0 : ℝ} {s : Ledger} (h : Balanced m0 s) (l : List ThrustArc) : Balanced m0 (s.run l) := by
  induction l generalizing s with
  | nil => exact h
  | cons a t ih => exact ih (append_balanced h a)

theorem new_balanced {m0 : ℝ} {s : Ledger} (h : Ledger.new m0 = .ok s) : Balanced m0 s := by
  unfold Ledger.new at h
  by_cases h0 : m0 ≤ 0
  · simp [h0] at h
  · rw [if_neg h0] at h
    simp only [Except.ok.injEq] at h
    subst h
    exact ⟨not_le.mp h0, by simp, by simp, by simp, rfl⟩

theorem g0_pos : 0 < g0 := by unfold g0; norm_num

/-- The recorded Δv is the integral of thrust over the shrinking mass. -/
theorem rocket_integral {m thrust isp d : ℝ} (hi : 0 < isp) (hd : 0 ≤ d) (hm : 0 < m)
    (ha : 0 < m - thrust / (isp * g0) * d) :
    ∫ t in (0 : ℝ)..d, thrust / (m - thrust / (isp * g0) * t)
      = isp * g0 * Real.log (m / (m - thrust / (isp * g0) * d)) := by
  have hg := g0_pos
  set k := thrust / (isp * g0) with hk
  have hth : thrust = isp * g0 * k := by rw [hk]; field_simp
  have pos : ∀ t ∈ Set.uIcc 0 d, 0 < m - k * t := by
    intro t ht
    rw [Set.uIcc_of_le hd] at ht
    obtain ⟨t0, t1⟩ := ht
    rcases le_total k 0 with h | h
    · nlinarith
    · nlinarith
  have hder : ∀ t ∈ Set.uIcc 0 d, HasDerivAt (fun t => -(isp * g0) * Real.log (m - k * t)) (thrust / (m - k * t)) t := by
    intro t ht
    have h1 : HasDerivAt (fun t : ℝ => m - k * t) (-k) t := by
      simpa using ((hasDerivAt_id t).const_mul k).const_sub m
    have h2 := (h1.log (pos t ht).ne').const_mul (-(isp * g0))
    refine h2.congr_deriv ?_
    rw [hth]
    have := (pos t ht).ne'
    field_simp
  rw [intervalIntegral.integral_eq_sub_of_hasDerivAt hder]
  · rw [Real.log_div hm.ne' ha.ne']
    simp
    ring
  · apply ContinuousOn.intervalIntegrable
    refine ContinuousOn.div continuousOn_const ?_ fun t ht => (pos t ht).ne'
    fun_prop

/-! ### Periodic accelerations -/

/-- The acceleration repeats after each cycle, whatever the state of the orbit. -/
theorem periodic_repeats (p : Periodic) (hm : p.multiplier ≠ 0) (hp : 0 < p.period)
    (inertial : OrbitState → Option (Vec3 → Vec3)) (hi : ∀ s t, inertial { s with jd := t } = inertial s) (s : OrbitState) :
    p.acceleration inertial { s with jd := s.jd + p.period / p.multiplier / 86400 } = p.acceleration inertial s := by
  have hm' : (p.multiplier : ℝ) ≠ 0 := by exact_mod_cast hm
  have e : p.phase (s.jd + p.period / p.multiplier / 86400) = p.phase s.jd + 2 * Real.pi := by
    unfold Periodic.phase
    simp only [not_le.mpr hp, if_false]
    field_simp
    ring
  unfold Periodic.acceleration
  simp only [e, hi, Real.cos_add_two_pi, Real.sin_add_two_pi]

/-- Each component is a pure harmonic about the reference epoch, never larger than its amplitude. -/
theorem periodic_components (p : Periodic) (hp : 0 < p.period) (inertial : OrbitState → Option (Vec3 → Vec3)) (s : OrbitState)
    {f : Vec3 → Vec3} (hf : inertial s = some f) :
    ∃ a : Vec3, p.acceleration inertial s = some (f a) ∧
      (∀ i, a i = p.cos i * Real.cos (2 * Real.pi * p.multiplier * ((s.jd - p.epoch) * 86400 / p.period))
        + p.sin i * Real.sin (2 * Real.pi * p.multiplier * ((s.jd - p.epoch) * 86400 / p.period))) ∧
      ∀ i, a i ^ 2 ≤ p.cos i ^ 2 + p.sin i ^ 2 := by
  have e : p.phase s.jd = 2 * Real.pi * p.multiplier * ((s.jd - p.epoch) * 86400 / p.period) := by
    unfold Periodic.phase
    simp only [not_le.mpr hp, if_false]
    field_simp
  refine ⟨!₂[p.cos 0 * Real.cos (p.phase s.jd) + p.sin 0 * Real.sin (p.phase s.jd),
    p.cos 1 * Real.cos (p.phase s.jd) + p.sin 1 * Real.sin (p.phase s.jd),
    p.cos 2 * Real.cos (p.phase s.jd) + p.sin 2 * Real.sin (p.phase s.jd)], ?_, ?_, ?_⟩
  · unfold Periodic.acceleration
    rw [hf]; rfl
  · intro i; rw [← e]; fin_cases i <;> simp
  · intro i
    have := Real.sin_sq_add_cos_sq (p.phase s.jd)
    have key : ∀ a b, (a * Real.cos (p.phase s.jd) + b * Real.sin (p.phase s.jd)) ^ 2 ≤ a ^ 2 + b ^ 2 := by
      intro a b
      nlinarith [sq_nonneg (a * Real.sin (p.phase s.jd) - b * Real.cos (p.phase s.jd))]
    fin_cases i <;> exact key _ _

end Verif.Pod
