import Mathlib.Analysis.Real.Pi.Bounds
import Verif.Pod.Range

/-
Properties C90 to C99: process noise, propagation helpers, quality control, thrust and observations.
-/
namespace Verif.Pod.Props
open Verif.Pod Spec

/-! ### C90: process noise -/

/-- **A noise matrix is returned exactly for documented parameters and a duration that is not negative, and it is then
the covariance that the documented noises build up in that time.** -/
theorem noise_matrix (m : NoiseModel) (dt : ℝ) :
    ((∃ q, m.qMatrix dt = .ok q) ↔ 0 ≤ dt ∧ Valid m) ∧
    ∀ q, m.qMatrix dt = .ok q → ∀ i j, q i j = accumulated (sources m) dt i j := by
  refine ⟨⟨fun ⟨q, h⟩ => ⟨(qMatrix_ok h).1, (qMatrix_ok h).2.1⟩, fun h => qMatrix_total h.1 h.2⟩, fun q h => (qMatrix_ok h).2.2⟩

/-- A tracked satellite with a drag scale and empirical accelerations. -/
noncomputable def tracked : NoiseModel :=
  ⟨![1e-18, 2e-18, 3e-18], some ⟨0.1, 3600⟩, none, some ![1e-12, 2e-12, 3e-12]⟩

theorem tracked_valid : Valid tracked := by
  refine ⟨fun i => by fin_cases i <;> norm_num [tracked], fun g hg => ?_, fun g hg => by simp [tracked] at hg, fun s hs i => ?_⟩
  · simp only [tracked, Option.some.injEq] at hg
    rw [← hg]; norm_num
  · simp only [tracked, Option.some.injEq] at hs
    rw [← hs]; fin_cases i <;> norm_num

example : ∃ q, tracked.qMatrix 60 = .ok q := (noise_matrix tracked 60).1.mpr ⟨by norm_num, tracked_valid⟩
example : ¬ ∃ q, tracked.qMatrix (-60) = .ok q := by rw [(noise_matrix tracked (-60)).1]; norm_num

/-- **It is symmetric and positive semi-definite.** -/
theorem noise_covariance {m : NoiseModel} {dt : ℝ} {q : Table} (h : m.qMatrix dt = .ok q) (n : Nat) : Covariance q n := by
  obtain ⟨h1, h2, h3⟩ := qMatrix_ok h
  have : q = accumulated (sources m) dt := by funext i j; exact h3 i j
  rw [this]
  exact accumulated_covariance (sources_regular h2) h1 n

/-- **Nothing lies outside the announced dimension.** -/
theorem noise_dimension {m : NoiseModel} {dt : ℝ} {q : Table} (h : m.qMatrix dt = .ok q) (i j : Nat)
    (hij : m.dim ≤ i ∨ m.dim ≤ j) : q i j = 0 := by
  obtain ⟨_, h2, h3⟩ := qMatrix_ok h
  rw [h3]
  unfold accumulated
  rw [List.sum_eq_zero]
  intro x hx
  obtain ⟨s, hs, rfl⟩ := List.mem_map.mp hx
  have z : ∀ k, m.dim ≤ k → ∀ t, s.response t k = 0 := by
    intro k hk t
    unfold NoiseModel.dim at hk
    simp only [sources, List.mem_append, List.mem_map, List.mem_flatMap, Option.mem_toList, List.mem_cons,
      List.not_mem_nil, or_false] at hs
    have acc : ∀ q a, a < 3 → s = accelerationNoise q a → s.response t k = 0 := by
      rintro q a ha rfl
      simp only [accelerationNoise]
      rw [if_neg (by omega), if_neg (by omega)]
    rcases hs with (((hs | hs | hs) | ⟨g, hg, rfl⟩) | ⟨g, hg, rfl⟩) | ⟨v, hv, hs⟩
    · exact acc _ 0 (by omega) hs
    · exact acc _ 1 (by omega) hs
    · exact acc _ 2 (by omega) hs
    · simp [hg] at hk
      simp only [markovNoise]
      rw [if_neg (by omega)]
    · simp only [markovNoise]
      rw [if_neg]
      unfold srpIndex
      simp [hg] at hk
      split_ifs at hk ⊢ <;> omega
    · have hk' : empiricalIndex m + 3 ≤ k := by
        unfold empiricalIndex srpIndex
        simp only [hv, Option.isSome_some, if_true] at hk
        split_ifs at hk ⊢ <;> omega
      rcases hs with rfl | rfl | rfl <;> simp only [walkNoise] <;> rw [if_neg (by omega)]
  rcases hij with h | h
  · simp [z i h]
  · simp [z j h]

/-- **Cutting a step in two changes nothing**: the noise of the first part is carried over the second part by the
noise-free motion, and the noise of the second part is added. -/
theorem noise_cut {m : NoiseModel} {a b : ℝ} {qa qb q : Table} (ha : m.qMatrix a = .ok qa) (hb : m.qMatrix b = .ok qb)
    (h : m.qMatrix (a + b) = .ok q) (i j : Nat) :
    q i j = advance m b (fun k => advance m b (fun l => qa k l) j) i + qb i j := by
  obtain ⟨_, hv, ea⟩ := qMatrix_ok ha
  obtain ⟨_, _, eb⟩ := qMatrix_ok hb
  obtain ⟨_, _, e⟩ := qMatrix_ok h
  rw [e, eb, accumulated_cut (sources_regular hv) (sources_flow b)]
  have : qa = accumulated (sources m) a := by funext i j; exact ea i j
  rw [this]

/-- **The public test answers yes for every matrix it can be asked about.** -/
theorem noise_test {m : NoiseModel} {dt : ℝ} : m.isPsd dt = .ok true ↔ 0 ≤ dt ∧ Valid m := by
  rw [← (noise_matrix m dt).1]
  unfold NoiseModel.isPsd
  constructor
  · intro h
    rcases e : m.qMatrix dt with x | q
    · simp [e] at h
    · exact ⟨q, rfl⟩
  · rintro ⟨q, e⟩
    rw [e]
    simp only
    rw [matrixIsPsd_complete (noise_covariance e _)]

example : tracked.isPsd 60 = .ok true := noise_test.mpr ⟨by norm_num, tracked_valid⟩

/-! ### C91: noise levels in time -/

/-- **The variance of a scale parameter grows from zero to its steady state, and going on from one time to a later one
gives the variance of the later one.** -/
theorem markov_variance {g : GaussMarkov} (hs : 0 ≤ g.sigma) (ht : 0 < g.tau) :
    ∃ v : ℝ → ℝ, (∀ dt, g.varianceAfter dt = .ok (v dt)) ∧ v 0 = 0 ∧ (∀ dt, v dt ≤ g.sigma ^ 2) ∧ Monotone v ∧
      (∀ a b, v (a + b) = Real.exp (-b / g.tau) ^ 2 * v a + v b) ∧ ∀ dt, 0 ≤ dt → 0 ≤ v dt := by
  refine ⟨fun dt => g.sigma ^ 2 * (1 - Real.exp (-2 * dt / g.tau)), fun dt => ?_, by simp, fun dt => ?_, ?_, ?_, ?_⟩
  · simp [GaussMarkov.varianceAfter, not_lt.mpr hs, not_le.mpr ht]
  · have := Real.exp_pos (-2 * dt / g.tau)
    nlinarith [sq_nonneg g.sigma]
  · intro a b hab
    have : Real.exp (-2 * b / g.tau) ≤ Real.exp (-2 * a / g.tau) := by
      apply Real.exp_le_exp.mpr
      apply div_le_div_of_nonneg_right _ ht.le
      linarith
    simp only
    nlinarith [sq_nonneg g.sigma]
  · intro a b
    have : Real.exp (-2 * (a + b) / g.tau) = Real.exp (-b / g.tau) ^ 2 * Real.exp (-2 * a / g.tau) := by
      rw [← Real.exp_nat_mul, ← Real.exp_add]
      congr 1
      push_cast
      field_simp
      ring
    have e2 : Real.exp (-2 * b / g.tau) = Real.exp (-b / g.tau) ^ 2 := by
      rw [← Real.exp_nat_mul]; congr 1; push_cast; ring
    simp only [this, e2]
    ring
  · intro dt hdt
    have : Real.exp (-2 * dt / g.tau) ≤ 1 := by
      rw [Real.exp_le_one_iff]
      apply div_nonpos_of_nonpos_of_nonneg _ ht.le
      linarith
    simp only
    nlinarith [sq_nonneg g.sigma]

/-- **The code violates it for a step backwards in time: the "variance" is negative, and no error is returned.** -/
theorem backward_variance : ∃ g : GaussMarkov, 0 ≤ g.sigma ∧ 0 < g.tau ∧ ∃ v, g.varianceAfter (-3600) = .ok v ∧ v < 0 := by
  refine ⟨⟨1, 3600⟩, by norm_num, by norm_num, 1 * (1 - Real.exp (-2 * (-3600) / 3600)), ?_, ?_⟩
  · norm_num [GaussMarkov.varianceAfter]
  · have : 1 < Real.exp (-2 * (-3600) / 3600) := Real.one_lt_exp_iff.mpr (by norm_num)
    linarith

/-- **A schedule gives the level of the segment whose time it is, and the last level for ever after.** -/
theorem schedule (l : List Segment) (hd : ∀ s ∈ l, 0 ≤ s.duration) (t : ℝ) :
    (∀ k s, l[k]? = some s → endOf l k ≤ t → t < endOf l (k + 1) → (ProcessNoise.piecewise l).sigmaAt t = (s.pos, s.vel)) ∧
    (∀ s, l.getLast? = some s → endOf l l.length ≤ t → (ProcessNoise.piecewise l).sigmaAt t = (s.pos, s.vel)) ∧
    (l = [] → (ProcessNoise.piecewise l).sigmaAt t = (0, 0)) := by
  refine ⟨fun k s hk h1 h2 => ?_, fun s hs h => ?_, fun h => by simp [h, ProcessNoise.sigmaAt]⟩
  · have := lookUp_some hd (t := t) (c := 0) hk (by rwa [zero_add]) (by rwa [zero_add])
    have hne : l ≠ [] := by rintro rfl; simp at hk
    simp [ProcessNoise.sigmaAt, List.getLast?_eq_some_getLast hne, this]
  · have := lookUp_none hd (c := 0) (t := t) (by rwa [zero_add])
    simp [ProcessNoise.sigmaAt, hs, this]

/-- Every time from the start on is covered by one of the cases. -/
theorem schedule_total (l : List Segment) (t : ℝ) (ht : 0 ≤ t) :
    (∃ k < l.length, endOf l k ≤ t ∧ t < endOf l (k + 1)) ∨ endOf l l.length ≤ t := by
  by_contra h
  push Not at h
  have : ∀ k ≤ l.length, endOf l k ≤ t := by
    intro k
    induction k with
    | zero => intro _; simpa [endOf] using ht
    | succ k ih => intro hk; exact h.1 k (by omega) (ih (by omega))
  exact absurd (this _ le_rfl) (not_le.mpr h.2)

example : (ProcessNoise.piecewise [⟨60, 5, 1⟩, ⟨300, 10, 2⟩]).sigmaAt 100 = (10, 2) :=
  (schedule [⟨60, 5, 1⟩, ⟨300, 10, 2⟩] (by simp) 100).1 1 ⟨300, 10, 2⟩ rfl (by norm_num [endOf]) (by norm_num [endOf])
example : (ProcessNoise.piecewise [⟨60, 5, 1⟩, ⟨300, 10, 2⟩]).sigmaAt 1000 = (10, 2) :=
  (schedule [⟨60, 5, 1⟩, ⟨300, 10, 2⟩] (by simp) 1000).2.1 ⟨300, 10, 2⟩ rfl (by norm_num [endOf])

/-! ### C92: propagation -/

/-- **The fixed-step integrator cuts any duration, forwards or backwards, into equal steps that fit it exactly, that
do not exceed the limit and that are not more than needed.** -/
theorem sub_steps {step dt : ℝ} (hs : step ≠ 0) : ∃ n h, rk4Steps step dt = some (n, h) ∧
    n * h = dt ∧ |h| ≤ |step| ∧ (n = 0 ↔ dt = 0) ∧ (dt ≠ 0 → ((n : ℝ) - 1) * |step| < |dt| ∨ n = 1) := by
  have hp : 0 < |step| := abs_pos.mpr hs
  rcases e : rk4Steps step dt with _ | ⟨n, h⟩
  · unfold rk4Steps at e
    by_cases h0 : dt = 0
    · simp [h0] at e
    · simp [h0, not_le.mpr hp] at e
  · exact ⟨n, h, rfl, rk4_steps e⟩

/-- **The matrix stored with each state is the derivative of that state with respect to the initial one**, if each step
returns the derivative of its own step. There are as many entries as steps asked for. -/
theorem cumulative_stm {ε : Type} {step : (Fin 6 → ℝ) → Except ε ((Fin 6 → ℝ) × Mat6)} {flow : (Fin 6 → ℝ) → (Fin 6 → ℝ)}
    (hstep : ∀ s s' f, step s = .ok (s', f) → s' = flow s ∧ HasFDerivAt flow (asMap f) s)
    {s0 : Fin 6 → ℝ} {n : Nat} {l : List ((Fin 6 → ℝ) × Mat6)} (h : variational step s0 n = .ok l) :
    l.length = n ∧ ∀ k s p, l[k]? = some (s, p) → s = flow^[k + 1] s0 ∧ HasFDerivAt flow^[k + 1] (asMap p) s0 := by
  refine ⟨variationalLoop_ok h, fun k s p hk => ?_⟩
  have := variationalLoop_deriv hstep (s0 := s0) (j := 0) (phi := 1) (by rw [asMap_one]; exact hasFDerivAt_id s0) h k s p hk
  simpa using this

/-- A step of uniform motion with its exact matrix meets the assumption. -/
example : let drift : Mat6 := !![1, 0, 0, 60, 0, 0; 0, 1, 0, 0, 60, 0; 0, 0, 1, 0, 0, 60; 0, 0, 0, 1, 0, 0;
      0, 0, 0, 0, 1, 0; 0, 0, 0, 0, 0, 1]
    let step : (Fin 6 → ℝ) → Except String ((Fin 6 → ℝ) × Mat6) := fun s => .ok (asMap drift s, drift)
    ∀ s s' f, step s = .ok (s', f) → s' = asMap drift s ∧ HasFDerivAt (asMap drift) (asMap f) s := by
  intro drift step s s' f h
  simp only [step, Except.ok.injEq, Prod.mk.injEq] at h
  obtain ⟨rfl, rfl⟩ := h
  exact ⟨rfl, (asMap drift).hasFDerivAt⟩

/-- **An arc is returned exactly when every step succeeds.** -/
theorem arc_exists {S ε : Type} {step : S → Except ε (S × Mat6)} {s0 : S} {n : Nat} {e : ε}
    (h : variational step s0 n = .error e) : ∃ s, step s = .error e := by
  have : ∀ n (s : S) (phi : Mat6), variationalLoop step n s phi = .error e → ∃ s, step s = .error e := by
    intro n
    induction n with
    | zero => intro s phi h; simp [variationalLoop] at h
    | succ n ih =>
      intro s phi h
      rw [variationalLoop] at h
      rcases e1 : step s with x | ⟨s', f⟩
      · rw [e1] at h; simp only [Except.error.injEq] at h; exact ⟨s, by rw [e1, h]⟩
      · rw [e1] at h
        dsimp only at h
        rcases e2 : variationalLoop step n s' (f * phi) with x | l
        · rw [e2] at h; simp only [Except.error.injEq] at h; exact ih s' (f * phi) (by rw [e2, h])
        · simp [e2] at h
  exact this n s0 1 h

/-- **Parameter derivatives: in the limit the derivative, and already exact for a quadratic trajectory.** -/
theorem parameter_column {y : ℝ → Fin 6 → ℝ} {p : ℝ} :
    (∀ d : Fin 6 → ℝ, (∀ i, HasDerivAt (fun p => y p i) (d i) p) → ∀ i,
      Filter.Tendsto (fun ε => ((centralDifference y p ε).getD 0) i) (nhdsWithin 0 (Set.Ioi 0)) (nhds (d i))) ∧
    (∀ a b c : Fin 6 → ℝ, (∀ p i, y p i = a i + b i * p + c i * p ^ 2) → ∀ ε, 0 < ε → ∀ i,
      ((centralDifference y p ε).getD 0) i = b i + 2 * c i * p) :=
  ⟨fun _ h i => centralDifference_tendsto h i, fun _ _ _ h _ hε i => centralDifference_exact h hε i⟩

/-- **The relative difference of two columns vanishes only for equal columns.** -/
theorem column_difference (a b : Fin 6 → ℝ) : maxRelativeDifference a b = 0 ↔ a = b := (maxRelativeDifference_spec a b).2

/-- **The documentation says otherwise**: compared with the zero column the result is announced to be zero; it is the
largest component. -/
theorem zero_column_difference : ∃ a : Fin 6 → ℝ, maxRelativeDifference a 0 ≠ 0 :=
  ⟨fun _ => 5, fun h => by have := congrFun ((column_difference _ _).mp h) 0; norm_num at this⟩

/-! ### C93: residual statistics -/

/-- **The statistics are what their names say.** -/
theorem statistics {l : List ℝ} (hl : l ≠ []) : Describes (Stats.fromSlice l) l := stats_describe hl

example : (Stats.fromSlice [1, -1, 1, -1]).mean = 0 := by
  have := (statistics (l := [1, -1, 1, -1]) (by simp)).mean
  norm_num at this
  exact this

/-- **They do not depend on the order of the residuals, the mean lies between the extremes, and mean, spread and RMS
fit together.** -/
theorem statistics_consistent {l : List ℝ} (hl : l ≠ []) : let s := Stats.fromSlice l
    (∀ l', l.Perm l' → Stats.fromSlice l' = s) ∧
    s.rms ^ 2 = s.mean ^ 2 + s.std ^ 2 * (l.length - 1) / l.length ∧ s.min ≤ s.mean ∧ s.mean ≤ s.max ∧ |s.mean| ≤ s.rms := by
  refine ⟨fun l' hp => ?_, describes_relations hl (statistics hl)⟩
  have hl' : l' ≠ [] := fun h => hl (by rw [h] at hp; exact hp.eq_nil)
  exact (describes_unique hl hp (statistics hl) (statistics hl')).symm

/-- **Groups: one for each label, in order, with the statistics of its own values; the overall statistics are those of
all values.** -/
theorem grouped (items : List (String × ℝ)) :
    ((fromPairs items).1.map Prod.fst).Pairwise (· < ·) ∧
    (∀ k, k ∈ (fromPairs items).1.map Prod.fst ↔ k ∈ items.map Prod.fst) ∧
    (∀ k s, (k, s) ∈ (fromPairs items).1 → Describes s ((items.filter fun p => p.1 = k).map Prod.snd)) ∧
    (items ≠ [] → Describes (fromPairs items).2 (items.map Prod.snd)) := by
  obtain ⟨h1, h2, h3⟩ := groups_spec items
  refine ⟨h1, h2, fun k s hs => ?_, fun h => ?_⟩
  · rw [h3 k s hs]
    apply statistics
    have : k ∈ items.map Prod.fst := (h2 k).mp (List.mem_map.mpr ⟨_, hs, rfl⟩)
    obtain ⟨p, hp, hk⟩ := List.mem_map.mp this
    intro e
    have : p.2 ∈ (items.filter fun p => p.1 = k).map Prod.snd :=
      List.mem_map.mpr ⟨p, List.mem_filter.mpr ⟨hp, by simpa using hk⟩, rfl⟩
    rw [e] at this
    simp at this
  · exact statistics (by simpa using h)

/-! ### C94: orbit comparison -/

/-- **The three-dimensional RMS of a comparison is the RMS of the distances in metres**, whatever the local frame, and
as many pairs are compared as the shorter list has. -/
theorem comparison_rms {f : OrbitState → Option (Vec3 → Vec3)} (hf : ∀ s g, f s = some g → ∀ v, ‖g v‖ = ‖v‖)
    {e r : List OrbitState} {l : List RtnDiff} (h : rtnDiff f e r = some l) (hl : l ≠ []) :
    (rtnSummary l).n = min e.length r.length ∧ 0 ≤ (rtnSummary l).rms3d ∧
    (rtnSummary l).rms3d ^ 2 = (List.zipWith (fun a b => (1000 * ‖a.position - b.position‖) ^ 2) e r).sum
      / (min e.length r.length : Nat) ∧
    (rtnSummary l).rms3d ^ 2 = (rtnSummary l).rmsR ^ 2 + (rtnSummary l).rmsT ^ 2 + (rtnSummary l).rmsN ^ 2 := by
  obtain ⟨h1, h2, h3, h4, h5, h6⟩ := summary_rms l hl
  refine ⟨by rw [h1, rtnDiff_length h], h2, ?_, ?_⟩
  · rw [h3, rtnDiff_squares hf h, rtnDiff_length h]
  · rw [h3, h4, h5, h6, ← add_div, ← add_div, sum_three]

/-- Three states against three states in the inertial axes themselves. -/
example : ∃ l, rtnDiff (fun _ => some id) [⟨0, !₂[7000, 0, 0], 0⟩, ⟨1, !₂[0, 7000, 0], 0⟩] [⟨0, !₂[7000, 0, 1], 0⟩] = some l ∧
    l ≠ [] := ⟨_, rfl, by simp⟩

/-- **The code violates the promise of a list of differences: one reference state without a local frame makes the whole
comparison panic.** -/
theorem comparison_panics {f : OrbitState → Option (Vec3 → Vec3)} {s : OrbitState} (hs : f s = none) (e : OrbitState) :
    rtnDiff f [e] [s] = none ∧ ∀ es rs, rtnDiff f (e :: es) (s :: rs) = none := by
  refine ⟨by simp [rtnDiff, hs], fun es rs => by simp [rtnDiff, hs]⟩

/-- **Otherwise it succeeds.** -/
theorem comparison_total (f : OrbitState → Option (Vec3 → Vec3)) (e r : List OrbitState) :
    (rtnDiff f e r).isSome = true ↔ ∀ s ∈ r.take e.length, (f s).isSome = true := rtnDiff_isSome f e r

/-! ### C95: thrust -/

/-- **A thrust arc pushes with thrust over mass along the given direction from its start up to but not including its
stop, and not at all otherwise.** -/
theorem thrust_force {start stop thrust isp mass t : ℝ} {d : Vec3} {a : ThrustArc}
    (h : ThrustArc.make start stop thrust isp d = .ok a) (hm : 0 < mass) :
    ∃ u : Vec3, ‖u‖ = 1 ∧ d = ‖d‖ • u ∧
    (start ≤ t ∧ t < stop → thrustAcceleration a mass t = .ok ((thrust / mass) • u)) ∧
    (¬ (start ≤ t ∧ t < stop) → thrustAcceleration a mass t = .ok 0) := by
  have hd := (make_ok_iff.mp h).2.2.1
  refine ⟨(‖d‖)⁻¹ • d, unit_norm hd, ?_, thrustAcceleration_ok h hm⟩
  rw [smul_smul, mul_inv_cancel₀ (norm_ne_zero_iff.mpr hd), one_smul]

/-- **The constructor accepts exactly a positive specific impulse, an interval that is not empty and a direction that
is not zero.** -/
theorem thrust_accepted (start stop thrust isp : ℝ) (d : Vec3) :
    (∃ a, ThrustArc.make start stop thrust isp d = .ok a) ↔ 0 < isp ∧ start < stop ∧ d ≠ 0 :=
  ⟨fun ⟨_, h⟩ => ⟨(make_ok_iff.mp h).1, (make_ok_iff.mp h).2.1, (make_ok_iff.mp h).2.2.1⟩,
    fun ⟨h1, h2, h3⟩ => ⟨_, make_ok_iff.mpr ⟨h1, h2, h3, rfl⟩⟩⟩

/-- **The books of the ledger balance after any sequence of entries, refused ones included.** -/
theorem ledger_balances {m0 : ℝ} {s : Ledger} (h : Ledger.new m0 = .ok s) (l : List ThrustArc) : Balanced m0 (s.run l) :=
  run_balanced (new_balanced h) l

/-- **An entry either changes nothing or records an arc: its Δv is the integral of thrust over the mass that is left.** -/
theorem ledger_entry (s : Ledger) (a : ThrustArc) (hm : 0 < s.mass) :
    (∃ e, s.append a = (s, .error e)) ∨
    ∃ r, (s.append a).2 = .ok r ∧ (s.append a).1.records = s.records ++ [r] ∧ r.duration = a.stop - a.start ∧
      r.deltaV = ∫ t in (0 : ℝ)..r.duration, a.thrust / (s.mass - a.thrust / (a.isp * g0) * t) ∧
      (s.append a).1.deltaV = s.deltaV + r.deltaV ∧
      (s.append a).1.mass = s.mass - a.thrust / (a.isp * g0) * r.duration := by
  rcases append_cases s a with h | ⟨hd, hi, hp, r, r1, r2, r3, r4, h⟩
  · exact Or.inl h
  · right
    refine ⟨r, by rw [h], by rw [h], r2, ?_, by rw [h], by rw [h, r2]; simp only; rw [r3]⟩
    rw [r2, rocket_integral hi hd.le hm hp, r4, r3]

example : Ledger.new 1000 = .ok ⟨1000, 0, 0, []⟩ := by norm_num [Ledger.new]

/-- **With one specific impulse throughout, the total Δv is that of the rocket equation.** -/
theorem ledger_rocket {m0 : ℝ} {s : Ledger} (h : Ledger.new m0 = .ok s) {isp : ℝ} (l : List ThrustArc)
    (hl : ∀ a ∈ l, a.isp = isp) : (s.run l).deltaV = isp * g0 * Real.log (m0 / (s.run l).mass) := by
  have hm0 : m0 ≠ 0 := by
    rintro rfl
    simp [Ledger.new] at h
  have key : ∀ (l : List ThrustArc) (s : Ledger), (∀ a ∈ l, a.isp = isp) → Balanced m0 s →
      s.deltaV = isp * g0 * Real.log (m0 / s.mass) → (s.run l).deltaV = isp * g0 * Real.log (m0 / (s.run l).mass) := by
    intro l
    induction l with
    | nil => intro s _ _ h; exact h
    | cons a t ih =>
      intro s hl hb hs
      refine ih (s.append a).1 (fun b hb => hl b (List.mem_cons_of_mem _ hb)) (append_balanced hb a) ?_
      rcases append_cases s a with ⟨e, h⟩ | ⟨hd, hi, hp, r, r1, r2, r3, r4, h⟩
      · rw [h]; exact hs
      · rw [h]
        simp only
        rw [← r3] at hp
        rw [hs, r4, hl a List.mem_cons_self, ← mul_add, Real.log_div hm0 hb.positive.ne',
          Real.log_div hb.positive.ne' hp.ne', Real.log_div hm0 hp.ne']
        ring
  refine key l s hl (new_balanced h) ?_
  unfold Ledger.new at h
  by_cases h0 : m0 ≤ 0
  · simp [h0] at h
  · rw [if_neg h0] at h
    simp only [Except.ok.injEq] at h
    rw [← h]
    simp [div_self hm0]

/-- **The code violates it for a negative thrust magnitude: the arc is accepted, fills the tank and gives a negative
Δv.** -/
theorem negative_thrust : ∃ a, ThrustArc.make 0 100 (-10) 300 !₂[1, 0, 0] = .ok a ∧ ∃ r,
    ((⟨1000, 0, 0, []⟩ : Ledger).append a).2 = .ok r ∧ r.propellant < 0 ∧
    1000 < ((⟨1000, 0, 0, []⟩ : Ledger).append a).1.mass := by
  have hne : (!₂[1, 0, 0] : Vec3) ≠ 0 := by
    intro h
    have := congrFun (congrArg (fun v : Vec3 => (v : Fin 3 → ℝ)) h) 0
    simp at this
  refine ⟨_, make_ok_iff.mpr ⟨by norm_num, by norm_num, hne, rfl⟩, ?_⟩
  have hg := g0_pos
  have neg : (-10 : ℝ) / (300 * g0) * (100 - 0) < 0 := by
    apply mul_neg_of_neg_of_pos _ (by norm_num)
    exact div_neg_of_neg_of_pos (by norm_num) (by positivity)
  rcases append_cases ⟨1000, 0, 0, []⟩ ⟨0, 100, -10, 300, (‖(!₂[1, 0, 0] : Vec3)‖)⁻¹ • !₂[1, 0, 0]⟩ with ⟨e, h⟩ | ⟨_, _, _, r, _, _, r3, _, h⟩
  · exfalso
    unfold Ledger.append massFlowRate at h
    simp only at h
    have h3 : ¬ (1000 - (-10 : ℝ) / (300 * g0) * (100 - 0) ≤ 0) := by linarith
    simp only [show ¬ ((100 : ℝ) - 0 ≤ 0) by norm_num, show ¬ ((300 : ℝ) ≤ 0) by norm_num, h3, if_false,
      Prod.mk.injEq, reduceCtorEq, and_false] at h
  · simp only at r3
    exact ⟨r, by rw [h], by rw [r3]; exact neg, by rw [h]; simp only; rw [r3]; linarith⟩

/-! ### C96: corrections of a range -/

/-- **Phase-centre and tide corrections: the corrected range agrees with the distance from the displaced receiver up to
the square of the displacement over twice the distance, and never exceeds it.** -/
theorem displaced_range (cs : List Correction) (hc : .shapiro ∉ cs) (rx sat : Vec3) (h : sat ≠ rx) :
    applyAll cs (1000 * ‖sat - rx‖) rx sat ≤ 1000 * ‖sat - (rx + shiftOf cs)‖ ∧
    1000 * ‖sat - (rx + shiftOf cs)‖ ≤ applyAll cs (1000 * ‖sat - rx‖) rx sat
      + 1000 * (‖shiftOf cs‖ ^ 2 / (2 * ‖sat - rx‖)) := by
  obtain ⟨h1, h2⟩ := shift_distance (sat - rx) (shiftOf cs) (sub_ne_zero.mpr h)
  rw [applyAll_shifts cs hc _ _ _ h, show sat - (rx + shiftOf cs) = sat - rx - shiftOf cs by abel]
  constructor <;> linarith

/-- **These corrections may be registered in any order.** -/
theorem shifts_commute {cs cs' : List Correction} (hp : cs.Perm cs') (hc : .shapiro ∉ cs) (range : ℝ) (rx sat : Vec3) :
    applyAll cs range rx sat = applyAll cs' range rx sat := by
  by_cases h : sat = rx
  · have id : ∀ (l : List Correction), .shapiro ∉ l → ∀ r, applyAll l r rx sat = r := by
      intro l
      induction l with
      | nil => intro _ r; rfl
      | cons c t ih =>
        intro hn r
        have := ih (fun hm => hn (List.mem_cons_of_mem _ hm)) (c.applyTo r rx sat)
        unfold applyAll at this ⊢
        rw [List.foldl_cons, this]
        cases c with
        | shapiro => exact absurd List.mem_cons_self hn
        | phaseCentre o => simp [Correction.applyTo, along, h]
        | tide o => simp [Correction.applyTo, along, h]
    rw [id cs hc, id cs' (fun hm => hc (hp.mem_iff.mpr hm))]
  · rw [applyAll_shifts cs hc _ _ _ h, applyAll_shifts cs' (fun hm => hc (hp.mem_iff.mpr hm)) _ _ _ h]
    have : shiftOf cs = shiftOf cs' := by
      clear hc
      induction hp with
      | nil => rfl
      | cons c _ ih => cases c <;> simp [shiftOf, ih]
      | swap a b l => cases a <;> cases b <;> simp [shiftOf] <;> abel
      | trans _ _ i1 i2 => exact i1.trans i2
    rw [this]

example : Correction.shapiro ∉ [Correction.phaseCentre !₂[1, 0, 0], .tide !₂[0, 1, 0]] := by simp

/-- **The Shapiro correction lengthens every range, and for the true range it has the documented value.** -/
theorem shapiro_correction (rx sat : Vec3) :
    (∀ range, 0 ≤ range → range ≤ applyAll [.shapiro] range rx sat) ∧
    (‖sat - rx‖ < ‖rx‖ + ‖sat‖ → applyAll [.shapiro] (‖sat - rx‖ * 1000) rx sat = ‖sat - rx‖ * 1000 +
      2 * gm / lightSpeed ^ 2 * Real.log ((‖rx‖ + ‖sat‖ + ‖sat - rx‖) / (‖rx‖ + ‖sat‖ - ‖sat - rx‖))) :=
  ⟨fun r h => shapiro_lengthens r rx sat h, fun h => shapiro_value rx sat h⟩

/-! ### C97: GNSS residuals -/

/-- **Code and phase of the same path differ by twice the ionospheric delay and the ambiguity, and the phase in cycles
is the phase in metres over the wavelength.** -/
theorem code_phase (u : Setup) (o : GnssObs) (rx : Vec3) (hf : 0 < o.frequency) :
    (phaseResidual u o rx).1 - pseudorangeResidual u o rx
      = 2 * ionoDelay o.iono o.frequency - o.ambiguity * (lightSpeed / o.frequency) ∧
    (phaseResidual u o rx).1 = (phaseResidual u o rx).2 * (lightSpeed / o.frequency) := by
  refine ⟨?_, phase_cycles u o rx hf⟩
  simp only [phaseResidual, pseudorangeResidual, wavelength, hf, if_true]
  ring

/-- **Two frequencies remove the ionosphere**: the ionosphere-free combination of two residuals of one path does not
depend on the ionosphere model. -/
theorem two_frequencies (u : Setup) (o : GnssObs) (rx : Vec3) {f g m n : ℝ} (hf : 0 < f) (hf' : 1e6 < |f - 1575420000|)
    (hg : 0 < g) (hg' : 1e6 < |g - 1575420000|) (i : Iono) :
    f ^ 2 * pseudorangeResidual u { o with frequency := f, measured := m, iono := i } rx
      - g ^ 2 * pseudorangeResidual u { o with frequency := g, measured := n, iono := i } rx
    = f ^ 2 * pseudorangeResidual u { o with frequency := f, measured := m, iono := .none } rx
      - g ^ 2 * pseudorangeResidual u { o with frequency := g, measured := n, iono := .none } rx := by
  have := iono_scaling i hf hf' hg hg'
  simp only [pseudorangeResidual]
  simp only [show ∀ x, ionoDelay .none x = 0 from fun _ => rfl]
  linear_combination -this

/-- GPS L2 and L5. -/
example : (1e6 : ℝ) < |1227600000 - 1575420000| ∧ (1e6 : ℝ) < |1176450000 - 1575420000| := by norm_num

/-- **The delays of the atmosphere are positive, and the tropospheric one does not grow with elevation.** -/
theorem delays_positive (e : ℝ) (p : Klobuchar) (hp : p.elevation ≤ 0.5) {f : ℝ} :
    0 < tropDelay (.saastamoinen e) ∧ 0 < ionoDelay (.klobuchar p) f ∧
    ∀ e', -(Real.pi / 2) ≤ e → e ≤ e' → e' ≤ Real.pi / 2 → tropDelay (.saastamoinen e') ≤ tropDelay (.saastamoinen e) := by
  refine ⟨saastamoinen_pos e, ?_, fun e' h0 h h1 => saastamoinen_anti h0 h h1⟩
  have := (klobuchar_floor p hp).2
  simp only [ionoDelay]
  split_ifs with h
  · have := h.1
    positivity
  · exact this

example : (0.25 : ℝ) ≤ 0.5 := by norm_num

theorem cos_quartic {x : ℝ} (h : |x| ≤ 1.5708) : |Real.cos x - (1 - x ^ 2 / 2 + x ^ 4 / 24)| ≤ 0.042 := by
  have hn : ‖(x : ℂ) * Complex.I‖ = |x| := by simp
  have b := Complex.exp_bound' (x := (x : ℂ) * Complex.I) (n := 6) (by
    rw [hn]; norm_num at h ⊢; linarith)
  rw [hn] at b
  have re := Complex.abs_re_le_norm
    (Complex.exp ((x : ℂ) * Complex.I) - ∑ m ∈ Finset.range 6, ((x : ℂ) * Complex.I) ^ m / (m.factorial : ℂ))
  have e : (Complex.exp ((x : ℂ) * Complex.I) - ∑ m ∈ Finset.range 6, ((x : ℂ) * Complex.I) ^ m / (m.factorial : ℂ)).re
      = Real.cos x - (1 - x ^ 2 / 2 + x ^ 4 / 24) := by
    have hs : (∑ m ∈ Finset.range 6, ((x : ℂ) * Complex.I) ^ m / (m.factorial : ℂ))
        = ((1 - x ^ 2 / 2 + x ^ 4 / 24 : ℝ) : ℂ) + ((x - x ^ 3 / 6 + x ^ 5 / 120 : ℝ) : ℂ) * Complex.I := by
      simp only [Finset.sum_range_succ, Finset.sum_range_zero, mul_pow, Nat.factorial]
      have i2 := Complex.I_sq
      have i3 : Complex.I ^ 3 = -Complex.I := by rw [pow_succ, i2]; ring
      have i4 : Complex.I ^ 4 = 1 := Complex.I_pow_four
      have i5 : Complex.I ^ 5 = Complex.I := by rw [pow_succ, i4]; ring
      rw [i2, i3, i4, i5]
      push_cast
      ring
    rw [hs, Complex.sub_re, Complex.exp_ofReal_mul_I_re, Complex.add_re, Complex.ofReal_re, Complex.re_ofReal_mul,
      Complex.I_re]
    ring
  rw [e] at re
  refine re.trans (b.trans ?_)
  have : |x| ^ 6 ≤ 1.5708 ^ 6 := by gcongr
  simp only [Nat.factorial]
  norm_num at this ⊢
  linarith

theorem pierce_cos {l : ℝ} (h : |l| ≤ 0.416) : 0.1 ≤ Real.cos (l * Real.pi) := by
  have hp := Real.pi_pos
  have e : Real.cos (l * Real.pi) = Real.sin (Real.pi / 2 - |l| * Real.pi) := by
    rw [Real.sin_pi_div_two_sub, ← Real.cos_abs, abs_mul, abs_of_pos hp]
  have h0 := abs_nonneg l
  have := Real.mul_le_sin (x := Real.pi / 2 - |l| * Real.pi)
    (by norm_num at h; nlinarith) (by nlinarith)
  rw [e]
  refine le_trans ?_ this
  have : 2 / Real.pi * (Real.pi / 2 - |l| * Real.pi) = 1 - 2 * |l| := by field_simp
  rw [this]
  norm_num at h ⊢
  linarith

open Verif.Pod.Spec in
/-- **The delay is the broadcast model of GPS**: for every pierce point satisfying the equations of the standard, the
code gives the delay of the standard in metres up to the difference between the cosine and the standard's polynomial for it,
at most 4.2 per cent of the daytime amplitude. -/
theorem broadcast_ionosphere (p : Klobuchar) (hp : p.elevation ≤ 0.5) (q : Pierce)
    (hq : IsPierce p.elevation p.azimuth p.lat p.lon p.utc q) :
    |klobuchar p - 299792458 * broadcastDelay p.alpha p.beta p.elevation q|
      ≤ 299792458 * obliquity p.elevation * amplitude p.alpha q * 0.042 := by
  have hpi := Real.pi_pos
  have hlo := Real.pi_gt_d20
  have hhi := Real.pi_lt_d20
  obtain ⟨angle, lat, lon, geo, t⟩ := q
  obtain ⟨h1, h2, h3, h4, h5, h6, k, h7⟩ := hq
  simp only at h1 h2 h3 h4 h5 h6 h7
  have hphi : max (-0.416) (min 0.416 (p.lat + angle * Real.cos (p.azimuth * Real.pi))) = lat := by
    rw [h2, mul_comm Real.pi]
    split_ifs with ha hb
    · rw [min_eq_left ha.le]; norm_num
    · rw [min_eq_right (by norm_num at ha hb ⊢; linarith), max_eq_left hb.le]
    · rw [min_eq_right (not_lt.mp ha), max_eq_right (not_lt.mp hb)]
  have hlat : |lat| ≤ 0.416 := by
    rw [← hphi, abs_le]
    exact ⟨le_max_left _ _, max_le (by norm_num) (min_le_left _ _)⟩
  have hcos := pierce_cos hlat
  have hfl : ⌊(4.32e4 * lon + p.utc) / 86400⌋ = k := by
    rw [Int.floor_eq_iff]
    norm_num at h7 ⊢
    constructor
    · rw [le_div_iff₀ (by norm_num)]; linarith
    · rw [div_lt_iff₀ (by norm_num)]; linarith
  have hF : 0 < obliquity p.elevation := by
    have : (0 : ℝ) < 0.53 - p.elevation := by norm_num at hp ⊢; linarith
    unfold obliquity
    norm_num at this ⊢
    positivity
  have hmax : ∀ a b : ℝ, (if a < b then b else a) = max a b := fun a b => by
    split_ifs with h
    · rw [max_eq_right h.le]
    · rw [max_eq_left (not_lt.mp h)]
  have key : klobuchar p = 299792458 * (obliquity p.elevation
      * (if |phase p.beta ⟨angle, lat, lon, geo, t⟩| < Real.pi / 2 then
          5e-9 + amplitude p.alpha ⟨angle, lat, lon, geo, t⟩ * Real.cos (phase p.beta ⟨angle, lat, lon, geo, t⟩)
        else 5e-9)) := by
    unfold klobuchar
    simp only [← h1, hphi]
    have hif : (1e-9 : ℝ) < |Real.cos (lat * Real.pi)| :=
      lt_of_lt_of_le (lt_of_lt_of_le (by norm_num) hcos) (le_abs_self _)
    simp only [if_pos hif]
    rw [mul_comm lat Real.pi, mul_comm p.azimuth Real.pi, ← h3, mul_comm (lon - 1.617) Real.pi, ← h4, hfl]
    have ht : 4.32e4 * lon + p.utc - (k : ℝ) * 86400 = t := by norm_num at h7 ⊢; linarith
    rw [ht]
    have c : ∀ a : Fin 4 → ℝ, a 0 + a 1 * geo + a 2 * geo * geo + a 3 * geo * geo * geo = cubic a geo := by
      intro a
      simp [cubic, Fin.sum_univ_four]
      ring
    rw [c, c]
    unfold phase amplitude obliquity
    simp only [hmax]
    unfold lightSpeed
    norm_num
    ring_nf
  rw [key]
  have hA : 0 ≤ amplitude p.alpha ⟨angle, lat, lon, geo, t⟩ := by
    unfold amplitude
    split_ifs with h
    · exact le_rfl
    · exact not_lt.mp h
  unfold broadcastDelay
  generalize amplitude p.alpha ⟨angle, lat, lon, geo, t⟩ = A at hA ⊢
  generalize phase p.beta ⟨angle, lat, lon, geo, t⟩ = x
  generalize obliquity p.elevation = F at hF ⊢
  have fin : ∀ d : ℝ, |d| ≤ 0.042 → |299792458 * (F * (A * d))| ≤ 299792458 * F * A * 0.042 := by
    intro d hd
    rw [abs_mul, abs_mul, abs_mul, abs_of_pos hF, abs_of_nonneg hA, abs_of_pos (by norm_num : (0 : ℝ) < 299792458)]
    calc _ = 299792458 * F * A * |d| := by ring
      _ ≤ _ := by gcongr
  by_cases hx : |x| < 1.57
  · rw [if_pos hx, if_pos (by norm_num at hx ⊢; linarith)]
    have := fin _ (cos_quartic (x := x) (by norm_num at hx ⊢; linarith))
    refine le_trans (le_of_eq ?_) this
    congr 1
    ring
  · rw [if_neg hx]
    by_cases hy : |x| < Real.pi / 2
    · rw [if_pos hy]
      have hc : Real.cos x = Real.sin (Real.pi / 2 - |x|) := by rw [Real.sin_pi_div_two_sub, Real.cos_abs]
      have hc0 : 0 ≤ Real.cos x := (Real.cos_pos_of_mem_Ioo ⟨(abs_lt.mp hy).1, (abs_lt.mp hy).2⟩).le
      have hc1 : Real.cos x ≤ 0.042 := by
        rw [hc]
        refine (Real.sin_le (by linarith)).trans ?_
        norm_num at hx ⊢
        linarith
      have := fin (Real.cos x) (by rw [abs_of_nonneg hc0]; exact hc1)
      refine le_trans (le_of_eq ?_) this
      congr 1
      norm_num
      ring
    · rw [if_neg hy]
      have h0 : (299792458 : ℝ) * (F * 5e-9) - 299792458 * (F * 5.0e-9) = 0 := by norm_num
      rw [h0, abs_zero]
      positivity

open Verif.Pod.Spec in
/-- Every ray has a pierce point. -/
theorem pierce_exists (e a φ l t : ℝ) : ∃ q, IsPierce e a φ l t q := by
  let ψ : ℝ := 0.0137 / (e + 0.11) - 0.022
  let y : ℝ := if 0.416 < φ + ψ * Real.cos (Real.pi * a) then 0.416
    else if φ + ψ * Real.cos (Real.pi * a) < -0.416 then -0.416 else φ + ψ * Real.cos (Real.pi * a)
  let x : ℝ := l + ψ * Real.sin (Real.pi * a) / Real.cos (Real.pi * y)
  let k := ⌊(43200 * x + t) / 86400⌋
  have h1 := Int.floor_le ((43200 * x + t) / 86400)
  have h2 := Int.lt_floor_add_one ((43200 * x + t) / 86400)
  rw [le_div_iff₀ (by norm_num)] at h1
  rw [div_lt_iff₀ (by norm_num)] at h2
  refine ⟨⟨ψ, y, x, y + 0.064 * Real.cos (Real.pi * (x - 1.617)), 43200 * x + t - 86400 * k⟩, rfl, rfl, rfl, rfl,
    ?_, ?_, k, ?_⟩
  · show 0 ≤ 43200 * x + t - 86400 * (k : ℝ); linarith
  · show 43200 * x + t - 86400 * (k : ℝ) < 86400; linarith
  · show 43200 * x + t = 43200 * x + t - 86400 * (k : ℝ) + 86400 * k; ring

/-- **The code violates the clock relation of GPS in either unit of its speed of light**: the satellite clock is to be
advanced by `-2 r·v / c²`, so the predicted pseudorange grows by `2 r·v / c`; the code subtracts that amount (speed of light in
kilometres per second) or a thousandth of it (metres per second). -/
theorem relativistic_clock_wrong (u : Setup) (hu : u.c = lightSpeed ∨ u.c = lightSpeed / 1000) (pos vel : Vec3)
    (h : inner ℝ pos vel ≠ 0) :
    relativisticClock u pos vel ≠ 2 * inner ℝ ((1000 : ℝ) • pos) ((1000 : ℝ) • vel) / lightSpeed ∧
    (u.c = lightSpeed / 1000 → relativisticClock u pos vel
      = -(2 * inner ℝ ((1000 : ℝ) • pos) ((1000 : ℝ) • vel) / lightSpeed)) ∧
    (u.c = lightSpeed → relativisticClock u pos vel
      = -(2 * inner ℝ ((1000 : ℝ) • pos) ((1000 : ℝ) • vel) / lightSpeed) / 1000) := by
  have hl : lightSpeed ≠ 0 := by unfold lightSpeed; norm_num
  have e : inner ℝ ((1000 : ℝ) • pos) ((1000 : ℝ) • vel) = 1000000 * inner ℝ pos vel := by
    rw [inner_smul_left, inner_smul_right]; simp; ring
  have e2 : relativisticClock u pos vel = -2 * inner ℝ pos vel * 1000 / u.c := by
    rw [inner_vec]; rfl
  rw [e, e2]
  refine ⟨?_, fun hc => ?_, fun hc => ?_⟩
  · rcases hu with hc | hc
    · rw [hc]
      intro hh
      field_simp at hh
      apply h
      linarith
    · rw [hc]
      intro hh
      field_simp at hh
      apply h
      linarith
  · rw [hc]; field_simp; ring
  · rw [hc]; field_simp; ring

example : inner ℝ (!₂[26000, 0, 0] : Vec3) !₂[0.05, 3.8, 0] ≠ 0 := by
  rw [inner_vec]
  simp
  norm_num

/-- A position turned about the pole by `a`: its coordinates in axes that have turned by `a` meanwhile. -/
noncomputable def turned (a : ℝ) (p : Vec3) : Vec3 :=
  !₂[Real.cos a * p 0 + Real.sin a * p 1, -Real.sin a * p 0 + Real.cos a * p 1, p 2]

/-- **The Sagnac term is the effect, to first order, of the turn of Earth-fixed axes during the travel of the signal.** -/
theorem earth_rotation (u : Setup) (sat rx : Vec3) (h : sat ≠ rx) :
    HasDerivAt (fun e => ‖turned (e * (u.omega * ‖sat - rx‖ / u.cKm)) sat - rx‖) (sagnac u sat rx) 0 := by
  set k := u.omega * ‖sat - rx‖ / u.cKm with hk
  have hn : ∀ e, ‖turned (e * k) sat - rx‖ = Real.sqrt ((Real.cos (e * k) * sat 0 + Real.sin (e * k) * sat 1 - rx 0) ^ 2
      + (-Real.sin (e * k) * sat 0 + Real.cos (e * k) * sat 1 - rx 1) ^ 2 + (sat 2 - rx 2) ^ 2) := by
    intro e
    rw [EuclideanSpace.norm_eq]
    congr 1
    simp [Fin.sum_univ_three, turned]
  have h0 : ‖sat - rx‖ ≠ 0 := norm_ne_zero_iff.mpr (sub_ne_zero.mpr h)
  have hsq : ‖sat - rx‖ ^ 2 = (sat 0 - rx 0) ^ 2 + (sat 1 - rx 1) ^ 2 + (sat 2 - rx 2) ^ 2 := by
    rw [EuclideanSpace.norm_sq_eq]
    simp [Fin.sum_univ_three]
  simp only [hn]
  have hl : HasDerivAt (fun e : ℝ => e * k) k 0 := by simpa using (hasDerivAt_id (0 : ℝ)).mul_const k
  have hc : HasDerivAt (fun e => Real.cos (e * k)) (-Real.sin (0 * k) * k) 0 := hl.cos
  have hs : HasDerivAt (fun e => Real.sin (e * k)) (Real.cos (0 * k) * k) 0 := hl.sin
  have h1 := (((hc.mul_const (sat 0)).add (hs.mul_const (sat 1))).sub_const (rx 0)).pow 2
  have h2 := (((hs.neg.mul_const (sat 0)).add (hc.mul_const (sat 1))).sub_const (rx 1)).pow 2
  have h3 := ((h1.add h2).add_const ((sat 2 - rx 2) ^ 2))
  have hne : (Real.cos (0 * k) * sat 0 + Real.sin (0 * k) * sat 1 - rx 0) ^ 2
      + (-Real.sin (0 * k) * sat 0 + Real.cos (0 * k) * sat 1 - rx 1) ^ 2 + (sat 2 - rx 2) ^ 2 = ‖sat - rx‖ ^ 2 := by
    rw [hsq]; simp
  have h4 := h3.sqrt (by
    simp only [Pi.add_apply, Pi.pow_apply, Pi.neg_apply]
    rw [hne]; exact pow_ne_zero 2 h0)
  refine h4.congr_deriv ?_
  simp only [Pi.add_apply, Pi.pow_apply, Pi.neg_apply]
  rw [hne, Real.sqrt_sq (norm_nonneg _)]
  simp
  rw [hk, sagnac]
  field_simp
  ring

example : (!₂[26000, 0, 0] : Vec3) ≠ !₂[0, 7000, 0] := by
  intro h
  have := congrFun (congrArg (fun v : Vec3 => (v : Fin 3 → ℝ)) h) 0
  simp at this

/-- **The code violates the measurement equation: the axes of GCRS do not turn, so the path of the signal is the distance
from the satellite at emission to the receiver at reception, and an error-free measurement of it has a residual**, the
Sagnac term with the opposite sign. -/
theorem rotation_counted_twice (u : Setup) (o : GnssObs) (rx : Vec3) (hr : u.receiverClock = 0)
    (hs : u.satelliteClock o.prn o.epoch = 0) (ht : o.trop = .none) (hi : o.iono = .none) (hv : o.vel = 0)
    (hm : o.measured = 1000 * ‖rx - o.sat‖) : pseudorangeResidual u o rx = -1000 * sagnac u o.sat rx := by
  simp [pseudorangeResidual, hr, hs, ht, hi, hv, hm, tropDelay, ionoDelay, relativisticClock]
  ring

example : sagnac ⟨0, fun _ _ => 0, 7.2921151467e-5, 299792458, 299792.458⟩ !₂[26000, 0, 0] !₂[0, 7000, 0] ≠ 0 := by
  simp [sagnac]
  norm_num

/-! ### C98: laser ranging and batches -/

/-- **The predicted two-way range is never shorter than twice the distance at the refined epoch: all corrections
lengthen it.** -/
theorem laser_corrections (o : SlrObs) (s : OrbitState) (hl : 0 < o.wavelength) (he : o.elevation < Real.pi / 2) :
    slrResidual o s ≤ o.measured
      - 2000 * ‖o.station - (o.sat - (1000 * ‖o.station - o.sat‖ / lightSpeed) • o.vel)‖ := by
  have hc : lightSpeed ≠ 0 := by unfold lightSpeed; norm_num
  unfold slrResidual
  simp only
  have e : ∀ dt, (!₂[o.sat 0 - o.vel 0 * dt, o.sat 1 - o.vel 1 * dt, o.sat 2 - o.vel 2 * dt] : Vec3) = o.sat - dt • o.vel := by
    intro dt
    ext i
    fin_cases i <;> simp <;> ring
  rw [e, show ‖o.station - o.sat‖ / (lightSpeed / 1000) = 1000 * ‖o.station - o.sat‖ / lightSpeed by field_simp]
  have h1 := mariniMurray_pos hl he
  have h2 := shapiroSlr_nonneg (a := radius o.station)
    (b := radius (o.sat - (1000 * ‖o.station - o.sat‖ / lightSpeed) • o.vel))
    (norm_nonneg (o.station - (o.sat - (1000 * ‖o.station - o.sat‖ / lightSpeed) • o.vel)))
  linarith

/-- **In full: twice the distance to the place of the satellite one light time earlier, twice the refraction of
Marini and Murray and the relativistic delay of both ways.** -/
theorem laser_residual (o : SlrObs) (s : OrbitState) (he : Real.pi / 60 ≤ o.elevation) {sat : Vec3} {d : ℝ}
    (hs : sat = o.sat - (1000 * ‖o.station - o.sat‖ / lightSpeed) • o.vel) (hd : d = ‖o.station - sat‖)
    (hg : d + 1 / 1000 < ‖o.station‖ + ‖sat‖) :
    o.measured - slrResidual o s = 2000 * d
      + 2 * ((0.9650 + 0.0164 / o.wavelength ^ 2 + 0.000228 / o.wavelength ^ 4) * (0.002277 * 1013.25)
        / (Real.sin o.elevation + 0.0014 / (Real.tan o.elevation + 0.045)))
      + 4 * gm / lightSpeed ^ 2 * Real.log ((‖o.station‖ + ‖sat‖ + d) / (‖o.station‖ + ‖sat‖ - d)) := by
  have hc : lightSpeed ≠ 0 := by unfold lightSpeed; norm_num
  unfold slrResidual
  simp only
  have e : ∀ dt, (!₂[o.sat 0 - o.vel 0 * dt, o.sat 1 - o.vel 1 * dt, o.sat 2 - o.vel 2 * dt] : Vec3) = o.sat - dt • o.vel := by
    intro dt
    ext i
    fin_cases i <;> simp <;> ring
  rw [e, show ‖o.station - o.sat‖ / (lightSpeed / 1000) = 1000 * ‖o.station - o.sat‖ / lightSpeed by field_simp, ← hs, ← hd]
  rw [show radius o.station = ‖o.station‖ from radius_eq _, show radius sat = ‖sat‖ from radius_eq _]
  unfold mariniMurray fLambda shapiroSlr
  simp only
  rw [max_eq_left (by linarith), if_pos (by linarith)]
  rw [show ‖o.station‖ * 1000 + ‖sat‖ * 1000 + d * 1000 = (‖o.station‖ + ‖sat‖ + d) * 1000 by ring,
    show ‖o.station‖ * 1000 + ‖sat‖ * 1000 - d * 1000 = (‖o.station‖ + ‖sat‖ - d) * 1000 by ring,
    mul_div_mul_right _ _ (by norm_num)]
  ring

/-- A satellite at rest overhead. -/
example : ‖(!₂[6378, 0, 0] : Vec3) - !₂[7378, 0, 0]‖ + 1 / 1000 < ‖(!₂[6378, 0, 0] : Vec3)‖ + ‖(!₂[7378, 0, 0] : Vec3)‖ := by
  have h : Real.sqrt 1000000 ≤ 1000 := by rw [Real.sqrt_le_left (by norm_num)]; norm_num
  simp [EuclideanSpace.norm_eq, Fin.sum_univ_three]
  norm_num
  linarith

/-- **The code violates the contract of a residual "at the given estimated state": the laser residual is the same for
all states**, so it cannot correct an orbit. -/
theorem laser_ignores_state (o : SlrObs) (s s' : OrbitState) : slrResidual o s = slrResidual o s' := rfl

/-- **A batch evaluates exactly the observations of the epoch, in order.** -/
theorem batch_residuals {S R ε : Type} (obs : List (AnyObs S R ε)) (epoch : ℝ) (s : S) (r : Except ε R) :
    r ∈ residualsWith obs epoch s ↔ ∃ o ∈ obs, |o.epoch - epoch| < 5.8e-12 ∧ r = o.residual s := by
  classical
  unfold residualsWith EpochsMatch
  simp only [List.mem_map, List.mem_filter, decide_eq_true_eq]
  constructor
  · rintro ⟨o, ⟨h1, h2⟩, rfl⟩; exact ⟨o, h1, h2, rfl⟩
  · rintro ⟨o, h1, h2, rfl⟩; exact ⟨o, ⟨h1, h2⟩, rfl⟩

/-- **Splitting a batch splits the residuals.** -/
theorem batch_append {S R ε : Type} (obs obs' : List (AnyObs S R ε)) (epoch : ℝ) (s : S) :
    residualsWith (obs ++ obs') epoch s = residualsWith obs epoch s ++ residualsWith obs' epoch s := by
  simp [residualsWith]

/-- **The code violates its documentation: without a state `residuals_at_epoch` reports an error for every matching
observation and never a residual.** -/
theorem batch_never_ok {S R ε : Type} (obs : List (AnyObs S R ε)) (epoch : ℝ) (e : ε) :
    ∀ r ∈ residualsAt obs epoch e, r = .error e := by
  intro r hr
  unfold residualsAt at hr
  obtain ⟨o, _, rfl⟩ := List.mem_map.mp hr
  rfl

/-- **The announced tolerance of half a microsecond has no effect**: near the present two different dates of 64 bits are
at least 40 microseconds apart, so only equal dates match. -/
theorem batch_tolerance_void (m n : ℤ) : EpochsMatch (m / 2 ^ 31) (n / 2 ^ 31) ↔ m = n := epochs_match_grid

/-! ### C99: periodic accelerations -/

/-- **A periodic empirical acceleration repeats after each cycle, and each component is a pure harmonic of the period
bounded by its amplitude.** -/
theorem periodic (p : Periodic) (hm : p.multiplier ≠ 0) (hp : 0 < p.period) (inertial : OrbitState → Option (Vec3 → Vec3))
    (hi : ∀ s t, inertial { s with jd := t } = inertial s) (s : OrbitState) :
    p.acceleration inertial { s with jd := s.jd + p.period / p.multiplier / 86400 } = p.acceleration inertial s ∧
    ∀ f, inertial s = some f → ∃ a : Vec3, p.acceleration inertial s = some (f a) ∧
      (∀ i, a i = p.cos i * Real.cos (2 * Real.pi * p.multiplier * ((s.jd - p.epoch) * 86400 / p.period))
        + p.sin i * Real.sin (2 * Real.pi * p.multiplier * ((s.jd - p.epoch) * 86400 / p.period))) ∧
      ∀ i, a i ^ 2 ≤ p.cos i ^ 2 + p.sin i ^ 2 :=
  ⟨periodic_repeats p hm hp inertial hi s, fun _ hf => periodic_components p hp inertial s hf⟩

example : ∀ (s : OrbitState) (t : ℝ), (fun _ : OrbitState => some (id : Vec3 → Vec3)) { s with jd := t }
    = (fun _ : OrbitState => some (id : Vec3 → Vec3)) s := fun _ _ => rfl

end Verif.Pod.Props
