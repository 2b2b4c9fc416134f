import Verif.Sky.Geometry
import Mathlib.Analysis.Real.Pi.Bounds

/-
Properties C46, C47, C48: azimuth searches.
-/
namespace Verif.Sky.Props
open Verif.Sky Set

/-! ### C46: the range test -/

/-- Reduction to half a turn on either side. -/
theorem near_turn (x : ℝ) : ∃ k : ℤ, |x - k * (2 * Real.pi)| ≤ Real.pi := by
  obtain ⟨h1, h2, k, hk⟩ := angleDiff_spec x 0
  rw [sub_zero] at hk
  exact ⟨k, by rw [← hk, abs_le]; exact ⟨h1.le, h2⟩⟩

theorem cos_ge_iff {x h : ℝ} (h0 : 0 ≤ h) (h1 : h ≤ Real.pi) :
    Real.cos h ≤ Real.cos x ↔ ∃ k : ℤ, |x - k * (2 * Real.pi)| ≤ h := by
  have red : ∀ k : ℤ, Real.cos x = Real.cos |x - k * (2 * Real.pi)| := by
    intro k
    rw [Real.cos_abs, Real.cos_sub_int_mul_two_pi]
  constructor
  · intro hc
    obtain ⟨k, hk⟩ := near_turn x
    refine ⟨k, ?_⟩
    rw [red k] at hc
    exact (Real.strictAntiOn_cos.le_iff_ge ⟨h0, h1⟩ ⟨abs_nonneg _, hk⟩).mp hc
  · rintro ⟨k, hk⟩
    rw [red k]
    exact (Real.strictAntiOn_cos.le_iff_ge ⟨h0, h1⟩ ⟨abs_nonneg _, hk.trans h1⟩).mpr hk

theorem cos_gt_iff {x h : ℝ} (h0 : 0 ≤ h) (h1 : h ≤ Real.pi) :
    Real.cos h < Real.cos x ↔ ∃ k : ℤ, |x - k * (2 * Real.pi)| < h := by
  have red : ∀ k : ℤ, Real.cos x = Real.cos |x - k * (2 * Real.pi)| := by
    intro k
    rw [Real.cos_abs, Real.cos_sub_int_mul_two_pi]
  constructor
  · intro hc
    obtain ⟨k, hk⟩ := near_turn x
    refine ⟨k, ?_⟩
    rw [red k] at hc
    exact (Real.strictAntiOn_cos.lt_iff_gt ⟨h0, h1⟩ ⟨abs_nonneg _, hk⟩).mp hc
  · rintro ⟨k, hk⟩
    rw [red k]
    exact (Real.strictAntiOn_cos.lt_iff_gt ⟨h0, h1⟩ ⟨abs_nonneg _, hk.le.trans h1⟩).mpr hk

theorem deg_shift (az : ℝ) (k : ℤ) (mid : ℝ) :
    az - toRad mid - k * (2 * Real.pi) = toRad (toDeg az - 360 * k - mid) := by
  have : az = toRad (toDeg az) := (toRad_toDeg az).symm
  conv_lhs => rw [this]
  unfold toRad
  ring

theorem abs_toRad (x : ℝ) : |toRad x| = toRad |x| := by
  unfold toRad
  rw [abs_mul, abs_of_pos (show 0 < Real.pi / 180 by positivity)]

theorem half_width_range {lo hi : ℝ} (h : lo ≤ hi) (h' : hi ≤ lo + 360) :
    0 ≤ toRad ((hi - lo) * (1 / 2)) ∧ toRad ((hi - lo) * (1 / 2)) ≤ Real.pi := by
  constructor
  · unfold toRad
    have := Real.pi_pos
    apply mul_nonneg <;> [linarith; positivity]
  · have : toRad 180 = Real.pi := by unfold toRad; ring
    rw [← this, toRad_le]
    linarith

/-- The test function of a range is not negative exactly on the arc from the lower bound clockwise to the
upper bound, modulo full turns; positive exactly inside. All bounds, for arcs of at most a full turn. -/
theorem arc_iff {lo hi : ℝ} (h : lo ≤ hi) (h' : hi ≤ lo + 360) (az : ℝ) :
    (0 ≤ arcFn lo hi az ↔ ∃ k : ℤ, lo ≤ toDeg az - 360 * k ∧ toDeg az - 360 * k ≤ hi) ∧
    (0 < arcFn lo hi az ↔ ∃ k : ℤ, lo < toDeg az - 360 * k ∧ toDeg az - 360 * k < hi) := by
  obtain ⟨h0, h1⟩ := half_width_range h h'
  unfold arcFn azCosine
  rw [sub_nonneg, sub_pos, cos_ge_iff h0 h1, cos_gt_iff h0 h1]
  constructor
  · apply exists_congr
    intro k
    rw [deg_shift, abs_toRad, toRad_le, abs_le]
    constructor
    · rintro ⟨a, b⟩; constructor <;> linarith
    · rintro ⟨a, b⟩; constructor <;> linarith
  · apply exists_congr
    intro k
    rw [deg_shift, abs_toRad, toRad_lt, abs_lt]
    constructor
    · rintro ⟨a, b⟩; constructor <;> linarith
    · rintro ⟨a, b⟩; constructor <;> linarith

theorem deg_range {az : ℝ} (h0 : 0 ≤ az) (h1 : az < 2 * Real.pi) : 0 ≤ toDeg az ∧ toDeg az < 360 := by
  have e0 : toRad 0 = 0 := by unfold toRad; ring
  have e1 : toRad 360 = 2 * Real.pi := by unfold toRad; ring
  constructor
  · rw [← toRad_le, e0, toRad_toDeg]; exact h0
  · rw [← toRad_lt, e1, toRad_toDeg]; exact h1

theorem int_small {k : ℤ} {x : ℝ} (h0 : 0 ≤ x) (h1 : x < 360) (a : 0 ≤ x - 360 * k) (b : x - 360 * k ≤ 360) :
    k = 0 ∨ (k = -1 ∧ x = 0) := by
  have d1 : ((k : ℤ) : ℝ) < (1 : ℤ) := by push_cast; linarith
  have d2 : ((-2 : ℤ) : ℝ) < (k : ℤ) := by push_cast; linarith
  rw [Int.cast_lt] at d1 d2
  have : k = 0 ∨ k = -1 := by omega
  rcases this with rfl | rfl
  · exact Or.inl rfl
  · right
    refine ⟨rfl, ?_⟩
    push_cast at b
    linarith

/-- Ranges given as compass bearings, not wrapped. The azimuth 0 also belongs to a range that ends at 360. -/
theorem range_test {min max az : ℝ} (h0 : 0 ≤ min) (hle : min ≤ max) (h1 : max ≤ 360) (ha0 : 0 ≤ az) (ha1 : az < 2 * Real.pi) :
    0 ≤ arcFn min max az ↔ (min ≤ toDeg az ∧ toDeg az ≤ max) ∨ (az = 0 ∧ max = 360) := by
  obtain ⟨d0, d1⟩ := deg_range ha0 ha1
  rw [(arc_iff hle (by linarith) az).1]
  constructor
  · rintro ⟨k, a, b⟩
    rcases int_small d0 d1 (by linarith) (by linarith) with rfl | ⟨rfl, hz⟩
    · left; simp only [Int.cast_zero, mul_zero, sub_zero] at a b; exact ⟨a, b⟩
    · right
      push_cast at b
      refine ⟨?_, by linarith⟩
      rw [← toRad_toDeg az, hz]; unfold toRad; ring
  · rintro (⟨a, b⟩ | ⟨rfl, rfl⟩)
    · exact ⟨0, by simpa using a, by simpa using b⟩
    · refine ⟨-1, ?_, ?_⟩ <;> push_cast <;> unfold toDeg <;> linarith

/-- Wrapped ranges: the code searches the complementary arc and complements the periods. An azimuth lies in
the wrapped range exactly when it is not strictly inside the complementary arc. -/
theorem wrapped_range_test {min max az : ℝ} (h0 : 0 ≤ max) (hlt : max < min) (h1 : min ≤ 360) (ha0 : 0 ≤ az)
    (ha1 : az < 2 * Real.pi) : (min ≤ toDeg az ∨ toDeg az ≤ max) ↔ ¬ 0 < arcFn max min az := by
  obtain ⟨d0, d1⟩ := deg_range ha0 ha1
  rw [(arc_iff hlt.le (by linarith) az).2]
  constructor
  · rintro h ⟨k, a, b⟩
    rcases int_small d0 d1 (by linarith) (by linarith) with rfl | ⟨rfl, hz⟩
    · simp only [Int.cast_zero, mul_zero, sub_zero] at a b
      rcases h with h | h <;> linarith
    · push_cast at b; linarith
  · intro h
    by_contra hc
    push Not at hc
    exact h ⟨0, by simpa using hc.2, by simpa using hc.1⟩

/-- Disagreement for arcs longer than a full turn: 90 degrees is not "in" the range from 0 to 540. -/
theorem long_arc_wrong : arcFn 0 540 (Real.pi / 2) < 0 := by
  unfold arcFn azCosine
  have e1 : Real.pi / 2 - toRad ((0 + 540) * (1 / 2)) = -Real.pi := by unfold toRad; ring
  have e2 : toRad ((540 - 0) * (1 / 2)) = Real.pi / 2 + Real.pi := by unfold toRad; ring
  rw [e1, e2, Real.cos_neg, Real.cos_pi, Real.cos_add_pi, Real.cos_pi_div_two]
  norm_num

/-- The periods found for a range: away from the instants at which the azimuth is at a bound, an instant of
the window belongs to a period exactly when the azimuth is inside the arc. The hypotheses are those of the
threshold search (`Verif.Event.Props.above_periods_exact_partial`). -/
theorem range_periods_exact_partial (alg : Event.PeriodAlgebra ℝ) (root : Event.RootFinder ℝ) (fuel : Nat) (a b step tol : ℝ)
    (az : ℝ → ℝ) {min max : ℝ} (hle : min ≤ max) (harc : max ≤ min + 360) (hab : a + 2 / 10 ^ 7 ≤ b) (hstep : 0 < step)
    (htol : 0 ≤ tol) (hprobe : 2 * tol < 1 / 10 ^ 7)
    (hres : Event.Spec.Resolved (fun t => arcFn min max (az t) - 0) a b step)
    (hacc : Event.Spec.Accurate root (fun t => arcFn min max (az t) - 0) a b tol)
    (hcross : Event.Spec.AllCross (fun t => arcFn min max (az t) - 0) a b step)
    (hsep : Event.Spec.Separated (fun t => arcFn min max (az t) - 0) a b (2 / 10 ^ 7 + 2 * tol))
    (hint : ∀ z ∈ Icc a b, arcFn min max (az z) = 0 → a + 2 / 10 ^ 7 + tol ≤ z ∧ z ≤ b - 2 / 10 ^ 7 - tol)
    (ps : List (ℝ × ℝ)) (h : azimuthRangePeriods alg root fuel a b step az min max = some ps) :
    Event.Spec.WellFormed a b ps ∧
    ∀ t ∈ Icc a b, (∀ z ∈ Icc a b, arcFn min max (az z) = 0 → tol < |t - z|) →
      (Event.Spec.InSome ps t ↔ ∃ k : ℤ, min < toDeg (az t) - 360 * k ∧ toDeg (az t) - 360 * k < max) := by
  unfold azimuthRangePeriods at h
  rw [if_pos hle] at h
  obtain ⟨hw, hm⟩ := Event.Props.above_periods_exact_partial root fuel a b step tol (fun t => arcFn min max (az t)) 0 hab hstep
    htol hprobe hres hacc hcross hsep hint ps h
  refine ⟨hw, fun t ht hfar => ?_⟩
  rw [hm t ht hfar, ← (arc_iff hle harc (az t)).2]

/-- The same for wrapped ranges, with the complement of the external crate. -/
theorem wrapped_periods_exact_partial (alg : Event.PeriodAlgebra ℝ) (root : Event.RootFinder ℝ) (fuel : Nat) (a b step tol : ℝ)
    (az : ℝ → ℝ) {min max : ℝ} (hlt : max < min) (harc : min ≤ max + 360) (hab : a + 2 / 10 ^ 7 ≤ b) (hstep : 0 < step)
    (htol : 0 ≤ tol) (hprobe : 2 * tol < 1 / 10 ^ 7)
    (halg : Event.Spec.AlgebraOK alg.complement alg.intersect a b)
    (hres : Event.Spec.Resolved (fun t => arcFn max min (az t) - 0) a b step)
    (hacc : Event.Spec.Accurate root (fun t => arcFn max min (az t) - 0) a b tol)
    (hcross : Event.Spec.AllCross (fun t => arcFn max min (az t) - 0) a b step)
    (hsep : Event.Spec.Separated (fun t => arcFn max min (az t) - 0) a b (2 / 10 ^ 7 + 2 * tol))
    (hint : ∀ z ∈ Icc a b, arcFn max min (az z) = 0 → a + 2 / 10 ^ 7 + tol ≤ z ∧ z ≤ b - 2 / 10 ^ 7 - tol)
    (ps : List (ℝ × ℝ)) (h : azimuthRangePeriods alg root fuel a b step az min max = some ps) :
    Event.Spec.WellFormed a b ps ∧ ∃ outside, Event.Spec.WellFormed a b outside ∧
      ∀ t, a < t → t < b → (∀ p ∈ outside, t ≠ p.1 ∧ t ≠ p.2) →
        (∀ z ∈ Icc a b, arcFn max min (az z) = 0 → tol < |t - z|) →
        (Event.Spec.InSome ps t ↔ ¬ ∃ k : ℤ, max < toDeg (az t) - 360 * k ∧ toDeg (az t) - 360 * k < min) := by
  unfold azimuthRangePeriods at h
  rw [if_neg (not_le.mpr hlt), Option.map_eq_some_iff] at h
  obtain ⟨outside, ho, rfl⟩ := h
  obtain ⟨hw, hm⟩ := Event.Props.above_periods_exact_partial root fuel a b step tol (fun t => arcFn max min (az t)) 0 hab hstep
    htol hprobe hres hacc hcross hsep hint outside ho
  refine ⟨halg.compl_wf _ hw, outside, hw, fun t h1 h2 hne hfar => ?_⟩
  rw [halg.compl_mem _ hw t h1 h2 hne, hm t ⟨h1.le, h2.le⟩ hfar, ← (arc_iff hlt.le harc (az t)).2]

/-! ### C47: bearing crossings -/

theorem dedupFrom_subset {α : Type} (same : α → α → Bool) (x : α) (l : List α) : ∀ y ∈ Event.dedupFrom same x l, y ∈ l := by
  induction l generalizing x with
  | nil => intro y hy; simp [Event.dedupFrom] at hy
  | cons z l ih =>
    intro y hy
    unfold Event.dedupFrom at hy
    split at hy
    · exact List.mem_cons_of_mem _ (ih x y hy)
    · rcases List.mem_cons.mp hy with rfl | hy
      · exact List.mem_cons_self
      · exact List.mem_cons_of_mem _ (ih z y hy)

theorem label_mem {l : List ℝ} {f : ℝ → ℝ} {thr : ℝ} {c : Event.LabeledCrossing ℝ} (h : c ∈ Event.labelCrossings l f thr) :
    c.t ∈ l ∧ Event.labelOne f thr c.t = some c := by
  unfold Event.labelCrossings at h
  dsimp only at h
  rw [List.mem_filterMap] at h
  obtain ⟨t, ht, hl⟩ := h
  have hmem : t ∈ l := by
    generalize hs : l.mergeSort (fun a b => decide (a ≤ b)) = s at ht
    have : t ∈ s := by
      cases s with
      | nil => simp [Event.dedupBy] at ht
      | cons x s =>
        unfold Event.dedupBy at ht
        rcases List.mem_cons.mp ht with rfl | ht
        · exact List.mem_cons_self
        · exact List.mem_cons_of_mem _ (dedupFrom_subset _ _ _ _ ht)
    rw [← hs] at this
    exact List.mem_mergeSort.mp this
  have hct : c.t = t := by
    unfold Event.labelOne at hl
    dsimp only at hl
    split at hl
    · cases hl; rfl
    · split at hl
      · cases hl; rfl
      · simp at hl
  rw [hct]
  exact ⟨hmem, hl⟩

/-- Every reported crossing lies in the window, and the azimuth there is the bearing or its opposite (with a
root finder that returns zeros). Missing: the opposite bearing is not filtered out, see
`opposite_bearing_reported`. -/
theorem crossing_bearing_partial {root : Event.RootFinder ℝ} (hroot : Exact root) {fuel : Nat} {a b step : ℝ} (hstep : 0 < step)
    {az : ℝ → ℝ} {bearing : ℝ} {cs : List (Event.LabeledCrossing ℝ)}
    (h : azimuthCrossings root fuel a b step az bearing = some cs) :
    ∀ c ∈ cs, a ≤ c.t ∧ c.t ≤ b ∧ ∃ k : ℤ, az c.t = toRad bearing + k * Real.pi := by
  unfold azimuthCrossings at h
  rw [Option.map_eq_some_iff] at h
  obtain ⟨raw, hraw, rfl⟩ := h
  intro c hc
  obtain ⟨hmem, _⟩ := label_mem hc
  obtain ⟨h1, h2, j, _, hr, _⟩ := Event.Props.plain_crossings_genuine root fuel a b step hstep _ 0 raw hraw _ hmem
  have hz := hroot _ _ _ _ _ _ hr
  simp only [sub_zero, bearingSin] at hz
  refine ⟨h1, h2, ?_⟩
  obtain ⟨k, hk⟩ := Real.sin_eq_zero_iff.mp hz
  exact ⟨k, by linarith⟩

/-- The direction is right where the azimuth is the bearing: rising exactly if the azimuth increases there
(over the probe width of 1e-7 days, moving less than half a turn). -/
theorem crossing_direction_partial {root : Event.RootFinder ℝ} {fuel : Nat} {a b step : ℝ} {az : ℝ → ℝ} {bearing : ℝ}
    {cs : List (Event.LabeledCrossing ℝ)} (h : azimuthCrossings root fuel a b step az bearing = some cs)
    {c : Event.LabeledCrossing ℝ} (hc : c ∈ cs) {k : ℤ} (hk : az c.t = toRad bearing + k * (2 * Real.pi)) :
    (az (c.t - 1 / 10 ^ 7) < az c.t → az c.t < az (c.t + 1 / 10 ^ 7) → az c.t - az (c.t - 1 / 10 ^ 7) < Real.pi →
      az (c.t + 1 / 10 ^ 7) - az c.t < Real.pi → c.direction = 1) ∧
    (az c.t < az (c.t - 1 / 10 ^ 7) → az (c.t + 1 / 10 ^ 7) < az c.t → az (c.t - 1 / 10 ^ 7) - az c.t < Real.pi →
      az c.t - az (c.t + 1 / 10 ^ 7) < Real.pi → c.direction = -1) := by
  unfold azimuthCrossings at h
  rw [Option.map_eq_some_iff] at h
  obtain ⟨raw, hraw, rfl⟩ := h
  obtain ⟨_, hl⟩ := label_mem hc
  have hsin : ∀ s, bearingSin az (toRad bearing) s = Real.sin (az s - az c.t) := by
    intro s
    unfold bearingSin
    rw [hk]
    have : az s - (toRad bearing + k * (2 * Real.pi)) = az s - toRad bearing - k * (2 * Real.pi) := by ring
    rw [this, Real.sin_sub_int_mul_two_pi]
  have hp : (Event.probeDt : ℝ) = 1 / 10 ^ 7 := rfl
  unfold Event.labelOne at hl
  dsimp only at hl
  rw [hsin, hsin, hp] at hl
  constructor
  · intro h1 h2 h3 h4
    have s1 : ¬ Real.sin (az (c.t - 1 / 10 ^ 7) - az c.t) > 0 := by
      have : Real.sin (az (c.t - 1 / 10 ^ 7) - az c.t) < 0 := Real.sin_neg_of_neg_of_neg_pi_lt (by linarith) (by linarith)
      linarith
    have s2 : Real.sin (az (c.t + 1 / 10 ^ 7) - az c.t) > 0 := Real.sin_pos_of_pos_of_lt_pi (by linarith) (by linarith)
    simp only [s1, s2, decide_true, decide_false, Bool.not_false, Bool.and_self, if_true, Option.some.injEq] at hl
    rw [← hl]
  · intro h1 h2 h3 h4
    have s1 : Real.sin (az (c.t - 1 / 10 ^ 7) - az c.t) > 0 := Real.sin_pos_of_pos_of_lt_pi (by linarith) (by linarith)
    have s2 : ¬ Real.sin (az (c.t + 1 / 10 ^ 7) - az c.t) > 0 := by
      have : Real.sin (az (c.t + 1 / 10 ^ 7) - az c.t) < 0 := Real.sin_neg_of_neg_of_neg_pi_lt (by linarith) (by linarith)
      linarith
    simp only [s1, s2, decide_true, decide_false, Bool.not_true, Bool.not_false, Bool.and_self, if_true, Bool.false_eq_true,
      if_false, Option.some.injEq] at hl
    rw [← hl]

/-- Disagreement: a body circling at constant rate, asked for the bearing north, is reported when it is due
south, and as moving the other way. Any root finder that finds the zero of the sine between 3 and 4. -/
theorem opposite_bearing_reported {root : Event.RootFinder ℝ}
    (hroot : root 3 4 (Real.sin 3) (Real.sin 4) Real.sin = some Real.pi) :
    azimuthCrossings root 2 3 4 1 (fun t => t) 0 = some [⟨Real.pi, -1⟩] ∧
    (¬ ∃ k : ℤ, (fun t : ℝ => t) Real.pi = toRad 0 + k * (2 * Real.pi)) := by
  have h3 : Real.pi > 3 := Real.pi_gt_three
  have h4 : Real.pi ≤ 4 := Real.pi_le_four
  have h4' : Real.pi < 4 := by linarith [Real.pi_lt_d2]
  have hg : (fun t : ℝ => bearingSin (fun t => t) (toRad 0) t - 0) = Real.sin := by
    funext t
    simp [bearingSin, toRad]
  have hf : bearingSin (fun t => t) (toRad 0) = Real.sin := by
    funext t
    simp [bearingSin, toRad]
  have s3 : 0 < Real.sin 3 := Real.sin_pos_of_pos_of_lt_pi (by norm_num) h3
  have s4 : Real.sin 4 < 0 := by
    have : Real.sin 4 = -Real.sin (4 - Real.pi) := by rw [Real.sin_sub_pi]; ring
    rw [this]
    have := Real.sin_pos_of_pos_of_lt_pi (x := 4 - Real.pi) (by linarith) (by linarith)
    linarith
  constructor
  · unfold azimuthCrossings Event.findCrossings
    dsimp only
    have h3' : bearingSin (fun t => t) (toRad 0) 3 - 0 = Real.sin 3 := by rw [hf, sub_zero]
    rw [hg, h3']
    have hn : Event.nextTime (4 : ℝ) 1 3 = 4 := by norm_num [Event.nextTime]
    rw [Event.findCrossingsLoop, if_pos (by norm_num)]
    dsimp only
    simp only [hn]
    rw [if_pos (Or.inr ⟨s3, s4⟩), hroot]
    dsimp only
    rw [if_pos ⟨h3.le, h4⟩, Event.findCrossingsLoop, if_neg (by norm_num), hf]
    simp only [List.nil_append, Option.map_some, Option.some.injEq]
    unfold Event.labelCrossings
    dsimp only
    rw [List.mergeSort_singleton]
    have hlab : Event.labelOne Real.sin 0 Real.pi = some ⟨Real.pi, -1⟩ := by
      have hp : (0 : ℝ) < Event.probeDt ∧ (Event.probeDt : ℝ) < 1 := by unfold Event.probeDt; norm_num
      unfold Event.labelOne
      dsimp only
      have sp := Real.sin_pos_of_pos_of_lt_pi hp.1 (by linarith)
      have a1 : Real.sin (Real.pi - Event.probeDt) > 0 := by rw [Real.sin_pi_sub]; exact sp
      have a2 : ¬ Real.sin (Real.pi + Event.probeDt) > 0 := by
        rw [add_comm, Real.sin_add_pi]; linarith
      simp only [a1, a2, decide_true, decide_false, Bool.not_true, Bool.not_false, Bool.and_self, if_true, Bool.false_eq_true,
        if_false]
    simp [Event.dedupBy, Event.dedupFrom, hlab]
  · rintro ⟨k, hk⟩
    simp only [toRad, zero_mul, zero_add] at hk
    have hk' : (k : ℝ) * 2 = 1 := by
      have := Real.pi_ne_zero
      field_simp at hk
      linarith
    have : (k * 2 : ℤ) = 1 := by exact_mod_cast hk'
    omega

/-! ### C48: unwrapping -/

/-- Offsets are whole turns. -/
theorem eval_offset {s : Unwrap} {j : ℤ} (h : s.offset = j * (2 * Real.pi)) (raw : ℝ) :
    ∃ k : ℤ, (s.eval raw).1.offset = k * (2 * Real.pi) := by
  unfold Unwrap.eval
  dsimp only
  split
  · exact ⟨j, h⟩
  · split
    · exact ⟨j - 1, by rw [h]; push_cast; ring⟩
    · split
      · exact ⟨j + 1, by rw [h]; push_cast; ring⟩
      · exact ⟨j, h⟩

theorem eval_value (s : Unwrap) (raw : ℝ) : (s.eval raw).2 = raw + (s.eval raw).1.offset ∧ (s.eval raw).1.prev = some raw :=
  ⟨rfl, rfl⟩

/-- Every value differs from the raw azimuth by whole turns, for every history. -/
theorem unwrap_mod (raws : List ℝ) :
    List.Forall₂ (fun raw v => ∃ k : ℤ, v = raw + k * (2 * Real.pi)) raws (Unwrap.run .init raws) := by
  have gen : ∀ (raws : List ℝ) (s : Unwrap), (∃ j : ℤ, s.offset = j * (2 * Real.pi)) →
      List.Forall₂ (fun raw v => ∃ k : ℤ, v = raw + k * (2 * Real.pi)) raws (s.run raws) := by
    intro raws
    induction raws with
    | nil => intro s _; exact List.Forall₂.nil
    | cons raw rest ih =>
      rintro s ⟨j, hj⟩
      obtain ⟨k, hk⟩ := eval_offset hj raw
      refine List.Forall₂.cons ⟨k, ?_⟩ (ih _ ⟨k, hk⟩)
      rw [(eval_value s raw).1, hk]
  exact gen raws .init ⟨0, by simp [Unwrap.init]⟩

/-- The difference of two successive values is at most half a turn (raw azimuths in one turn). -/
theorem eval_step {p o raw : ℝ} (h0 : 0 ≤ p) (h1 : p < 2 * Real.pi) (h2 : 0 ≤ raw) (h3 : raw < 2 * Real.pi) :
    |((⟨some p, o⟩ : Unwrap).eval raw).2 - (p + o)| ≤ Real.pi := by
  unfold Unwrap.eval
  dsimp only
  rw [abs_le]
  split
  · constructor <;> linarith
  · split
    · constructor <;> linarith
    · constructor <;> linarith

/-- Successive values differ by at most half a turn, for every history. -/
theorem unwrap_step {raws : List ℝ} (h : ∀ r ∈ raws, 0 ≤ r ∧ r < 2 * Real.pi) :
    List.IsChain (fun v w => |w - v| ≤ Real.pi) (Unwrap.run .init raws) := by
  have gen : ∀ (raws : List ℝ) (p o : ℝ), (0 ≤ p ∧ p < 2 * Real.pi) → (∀ r ∈ raws, 0 ≤ r ∧ r < 2 * Real.pi) →
      List.IsChain (fun v w => |w - v| ≤ Real.pi) ((p + o) :: (⟨some p, o⟩ : Unwrap).run raws) := by
    intro raws
    induction raws with
    | nil => intro p o _ _; exact List.isChain_singleton _
    | cons raw rest ih =>
      intro p o hp hr
      have hraw := hr raw List.mem_cons_self
      unfold Unwrap.run
      refine List.isChain_cons_cons.mpr ⟨eval_step hp.1 hp.2 hraw.1 hraw.2, ?_⟩
      exact ih raw _ hraw (fun r hr' => hr r (List.mem_cons_of_mem _ hr'))
  cases raws with
  | nil => exact List.isChain_nil
  | cons raw rest =>
    have := gen rest raw 0 (h raw List.mem_cons_self) (fun r hr => h r (List.mem_cons_of_mem _ hr))
    unfold Unwrap.run
    exact this

/-- If the azimuth moves less than half a turn between successive evaluations, in whatever order of time,
the values are the true continuous azimuths up to one constant number of turns. -/
theorem unwrap_true {angles : List ℝ} (h : List.IsChain (fun x y => |y - x| < Real.pi) angles) :
    ∃ k : ℤ, Unwrap.run .init (angles.map remTau) = angles.map (fun x => x + k * (2 * Real.pi)) := by
  have gen : ∀ (angles : List ℝ) (x o : ℝ) (k : ℤ), remTau x + o = x + k * (2 * Real.pi) →
      List.IsChain (fun x y => |y - x| < Real.pi) (x :: angles) →
      (⟨some (remTau x), o⟩ : Unwrap).run (angles.map remTau) = angles.map (fun x => x + k * (2 * Real.pi)) := by
    intro angles
    induction angles with
    | nil => intro x o k _ _; rfl
    | cons y rest ih =>
      intro x o k ho hc
      obtain ⟨hxy, hrest⟩ := List.isChain_cons_cons.mp hc
      have hst := eval_step (o := o) (remTau_nonneg x) (remTau_lt x) (remTau_nonneg y) (remTau_lt y)
      obtain ⟨i, hi⟩ := remTau_eq x
      obtain ⟨j, hj⟩ := remTau_eq y
      obtain ⟨m, hm⟩ := eval_offset (s := ⟨some (remTau x), o⟩) (j := k + i) (by
        simp only
        rw [hi] at ho
        push_cast
        linarith) (remTau y)
      have hval : ((⟨some (remTau x), o⟩ : Unwrap).eval (remTau y)).2 = y + k * (2 * Real.pi) := by
        rw [(eval_value _ _).1, hm, hj, ho] at hst
        rw [(eval_value _ _).1, hm, hj]
        have hle := abs_le.mp hst
        have hlt := abs_lt.mp hxy
        have hpi := Real.pi_pos
        have d1 : ((m - j - k : ℤ) : ℝ) < (1 : ℤ) := by
          push_cast
          have : ((m : ℝ) - j - k) * (2 * Real.pi) < 1 * (2 * Real.pi) := by linarith [hle.2, hlt.1]
          exact lt_of_mul_lt_mul_right this (by positivity)
        have d2 : ((-1 : ℤ) : ℝ) < ((m - j - k : ℤ) : ℝ) := by
          push_cast
          have : -1 * (2 * Real.pi) < ((m : ℝ) - j - k) * (2 * Real.pi) := by linarith [hle.1, hlt.2]
          exact lt_of_mul_lt_mul_right this (by positivity)
        rw [Int.cast_lt] at d1 d2
        have : m = j + k := by omega
        rw [this]
        push_cast
        ring
      rw [List.map_cons, List.map_cons]
      unfold Unwrap.run
      rw [hval]
      congr 1
      have hs : ((⟨some (remTau x), o⟩ : Unwrap).eval (remTau y)).1 =
          ⟨some (remTau y), ((⟨some (remTau x), o⟩ : Unwrap).eval (remTau y)).1.offset⟩ := rfl
      rw [hs]
      apply ih y _ k _ hrest
      rw [← (eval_value _ _).1]
      exact hval
  cases angles with
  | nil => exact ⟨0, rfl⟩
  | cons x rest =>
    obtain ⟨i, hi⟩ := remTau_eq x
    refine ⟨-i, ?_⟩
    rw [List.map_cons, List.map_cons]
    unfold Unwrap.run
    have hv : (Unwrap.init.eval (remTau x)).2 = x + ((-i : ℤ) : ℝ) * (2 * Real.pi) := by
      show remTau x + 0 = _
      rw [hi]; push_cast; ring
    rw [hv]
    congr 1
    exact gen rest x 0 (-i) (by rw [hi]; push_cast; ring) h

/-- Wrapping an unwrapped value gives back the raw azimuth: the extremum reported is in one turn. -/
theorem unwrap_wrap {raw v : ℝ} (h0 : 0 ≤ raw) (h1 : raw < 2 * Real.pi) {k : ℤ} (h : v = raw + k * (2 * Real.pi)) :
    remTau v = raw := remTau_unique (k := k) h0 h1 (by rw [h]; ring)

/-- The value depends on the history: three quarters of a turn evaluated in one step come out as a quarter
turn back, in two steps as three quarters of a turn. -/
theorem unwrap_history :
    Unwrap.run .init [0, 3 * Real.pi / 2] = [0, -Real.pi / 2] ∧
    Unwrap.run .init [0, 3 * Real.pi / 4, 3 * Real.pi / 2] = [0, 3 * Real.pi / 4, 3 * Real.pi / 2] := by
  have hpi := Real.pi_pos
  constructor
  · simp only [Unwrap.run, Unwrap.eval, Unwrap.init]
    rw [if_pos (by linarith)]
    simp only [add_zero, List.cons.injEq, and_true, true_and]
    ring
  · simp only [Unwrap.run, Unwrap.eval, Unwrap.init]
    rw [if_neg (by linarith), if_neg (by linarith), if_neg (by linarith), if_neg (by linarith)]
    simp

/-- A history that goes back and forth over north meets the hypothesis of `unwrap_true`. -/
example : List.IsChain (fun x y => |y - x| < Real.pi) ([-1, 1, -1, -3] : List ℝ) := by
  have := Real.pi_gt_three
  refine List.isChain_cons_cons.mpr ⟨?_, List.isChain_cons_cons.mpr ⟨?_, List.isChain_cons_cons.mpr ⟨?_, List.isChain_singleton _⟩⟩⟩ <;>
    norm_num [abs_of_neg] <;> linarith

end Verif.Sky.Props
