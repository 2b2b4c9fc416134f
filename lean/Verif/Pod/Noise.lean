import Verif.Pod.Spec
import Mathlib.Analysis.SpecialFunctions.Integrals.Basic

/-
The process-noise matrix is the covariance that the documented noises build up.
-/
namespace Verif.Pod
open Finset Spec

/-! ### The integrals -/

theorem acceleration_entry (q dt : ℝ) (a i j : Nat) :
    accumulated [accelerationNoise q a] dt i j =
      if i = a ∧ j = a then q * (dt * dt * dt) / 3
      else if i = a + 3 ∧ j = a + 3 then q * dt
      else if i = a ∧ j = a + 3 then q * (dt * dt) / 2
      else if i = a + 3 ∧ j = a then q * (dt * dt) / 2 else 0 := by
  have e2 : ∫ t in (0 : ℝ)..dt, t * t = dt ^ 3 / 3 := by
    have : ∫ t in (0 : ℝ)..dt, t * t = ∫ t in (0 : ℝ)..dt, t ^ 2 := by
      congr 1; funext t; ring
    rw [this, integral_pow]; norm_num
  by_cases hi : i = a <;> by_cases hi3 : i = a + 3 <;> by_cases hj : j = a <;> by_cases hj3 : j = a + 3 <;>
    first
    | omega
    | (simp [accumulated, accelerationNoise, hi, hi3, hj, hj3, e2]; try ring)

theorem markov_entry (σ τ dt : ℝ) (hτ : 0 < τ) (k i j : Nat) :
    accumulated [markovNoise σ τ k] dt i j =
      if i = k ∧ j = k then σ ^ 2 * (1 - Real.exp (-2 * dt / τ)) else 0 := by
  have e : ∫ t in (0 : ℝ)..dt, 2 * σ ^ 2 / τ * (Real.exp (-t / τ) * Real.exp (-t / τ))
      = σ ^ 2 * (1 - Real.exp (-2 * dt / τ)) := by
    have hd : ∀ t ∈ Set.uIcc (0 : ℝ) dt, HasDerivAt (fun t => -σ ^ 2 * Real.exp (-2 * t / τ))
        (2 * σ ^ 2 / τ * (Real.exp (-t / τ) * Real.exp (-t / τ))) t := by
      intro t _
      have h1 : HasDerivAt (fun t : ℝ => -2 * t / τ) (-2 / τ) t := by
        simpa using ((hasDerivAt_id t).const_mul (-2)).div_const τ
      have h2 := (h1.exp).const_mul (-σ ^ 2)
      refine h2.congr_deriv ?_
      rw [← Real.exp_add, show -t / τ + -t / τ = -2 * t / τ by ring]
      ring
    rw [intervalIntegral.integral_eq_sub_of_hasDerivAt hd]
    · simp; ring
    · apply Continuous.intervalIntegrable; fun_prop
  by_cases hi : i = k <;> by_cases hj : j = k <;> simp [accumulated, markovNoise, hi, hj] <;> simpa using e

theorem walk_entry (s dt : ℝ) (k i j : Nat) :
    accumulated [walkNoise s k] dt i j = if i = k ∧ j = k then s * s * dt else 0 := by
  by_cases hi : i = k <;> by_cases hj : j = k <;> simp [accumulated, walkNoise, hi, hj]
  exact Or.inl (pow_two s)

theorem accumulated_cons (s : Source) (l : List Source) (dt : ℝ) (i j : Nat) :
    accumulated (s :: l) dt i j = accumulated [s] dt i j + accumulated l dt i j := by
  simp [accumulated]

theorem accumulated_append (l l' : List Source) (dt : ℝ) (i j : Nat) :
    accumulated (l ++ l') dt i j = accumulated l dt i j + accumulated l' dt i j := by
  simp [accumulated]

theorem accumulated_nil (dt : ℝ) (i j : Nat) : accumulated [] dt i j = 0 := by simp [accumulated]

/-! ### The matrix of the code -/

theorem axes_ok {m : NoiseModel} {dt : ℝ} {q : Table} (h : axes m dt [0, 1, 2] (fun _ _ => 0) = .ok q) :
    (∀ i, 0 ≤ m.psd i) ∧ ∀ i j, q i j = accumulated
      [accelerationNoise (m.psd 0) 0, accelerationNoise (m.psd 1) 1, accelerationNoise (m.psd 2) 2] dt i j := by
  simp only [axes] at h
  split_ifs at h with h0 h1 h2
  push Not at h0 h1 h2
  simp only [Except.ok.injEq] at h
  refine ⟨fun i => by fin_cases i <;> assumption, fun i j => ?_⟩
  rw [accumulated_cons, accumulated_cons _ [_], acceleration_entry, acceleration_entry, acceleration_entry, ← h]
  simp only [put, Fin.val_zero, Fin.val_one, Fin.val_two, add_zero]
  by_cases i0 : i = 0 <;> [skip; by_cases i1 : i = 1] <;> [skip; skip; by_cases i2 : i = 2] <;>
    [skip; skip; skip; by_cases i3 : i = 3] <;> [skip; skip; skip; skip; by_cases i4 : i = 4] <;>
    [skip; skip; skip; skip; skip; by_cases i5 : i = 5] <;>
  (by_cases j0 : j = 0 <;> [skip; by_cases j1 : j = 1] <;> [skip; skip; by_cases j2 : j = 2] <;>
    [skip; skip; skip; by_cases j3 : j = 3] <;> [skip; skip; skip; skip; by_cases j4 : j = 4] <;>
    [skip; skip; skip; skip; skip; by_cases j5 : j = 5]) <;>
  simp_all

/-- The acceleration noises reach only the first six places. -/
theorem axes_outside {m : NoiseModel} {dt : ℝ} {i j : Nat} (h : 6 ≤ i ∨ 6 ≤ j) : accumulated
      [accelerationNoise (m.psd 0) 0, accelerationNoise (m.psd 1) 1, accelerationNoise (m.psd 2) 2] dt i j = 0 := by
  rw [accumulated_cons, accumulated_cons _ [_], acceleration_entry, acceleration_entry, acceleration_entry]
  simp only [show ¬ (i = 0 ∧ j = 0) by omega, show ¬ (i = 0 + 3 ∧ j = 0 + 3) by omega, show ¬ (i = 0 ∧ j = 0 + 3) by omega,
    show ¬ (i = 0 + 3 ∧ j = 0) by omega, show ¬ (i = 1 ∧ j = 1) by omega, show ¬ (i = 1 + 3 ∧ j = 1 + 3) by omega,
    show ¬ (i = 1 ∧ j = 1 + 3) by omega, show ¬ (i = 1 + 3 ∧ j = 1) by omega, show ¬ (i = 2 ∧ j = 2) by omega,
    show ¬ (i = 2 + 3 ∧ j = 2 + 3) by omega, show ¬ (i = 2 ∧ j = 2 + 3) by omega,
    show ¬ (i = 2 + 3 ∧ j = 2) by omega, if_false, add_zero]

/-- One scale parameter adds its own noise at the next place. -/
theorem scale_ok {o : Option GaussMarkov} {dt : ℝ} {idx k : Nat} {q q' : Table} (hq : ∀ j, q idx j = 0)
    (h : scale o dt idx q = .ok (k, q')) :
    (∀ g, o = some g → 0 ≤ g.sigma ∧ 0 < g.tau) ∧ k = idx + (if o.isSome then 1 else 0) ∧
    ∀ i j, q' i j = q i j + accumulated (o.toList.map fun g => markovNoise g.sigma g.tau idx) dt i j := by
  cases o with
  | none =>
    simp only [scale, Except.ok.injEq, Prod.mk.injEq] at h
    obtain ⟨rfl, rfl⟩ := h
    simp [accumulated_nil]
  | some g =>
    simp only [scale, GaussMarkov.varianceAfter] at h
    by_cases h1 : g.sigma < 0
    · simp [h1] at h
    by_cases h2 : g.tau ≤ 0
    · simp [h1, h2] at h
    simp only [h1, h2, if_false, Except.ok.injEq, Prod.mk.injEq] at h
    obtain ⟨rfl, rfl⟩ := h
    push Not at h1 h2
    refine ⟨fun g' e => by simp only [Option.some.injEq] at e; subst e; exact ⟨h1, h2⟩, by simp, fun i j => ?_⟩
    simp only [Option.toList_some, List.map_cons, List.map_nil]
    rw [markov_entry _ _ _ h2]
    unfold put
    split_ifs with hij
    · rw [hij.1, hij.2, hq, zero_add]
    · simp

/-- The empirical accelerations add their random walks at the next three places. -/
theorem whites_ok {s : Fin 3 → ℝ} {dt : ℝ} {idx : Nat} {q q' : Table} (hq : ∀ i j, idx ≤ i → q i j = 0)
    (h : whites s dt idx [0, 1, 2] q = .ok q') :
    (∀ i, 0 ≤ s i) ∧ ∀ i j, q' i j = q i j +
      accumulated [walkNoise (s 0) idx, walkNoise (s 1) (idx + 1), walkNoise (s 2) (idx + 2)] dt i j := by
  simp only [whites] at h
  split_ifs at h with h0 h1 h2
  push Not at h0 h1 h2
  simp only [Except.ok.injEq] at h
  refine ⟨fun i => by fin_cases i <;> assumption, fun i j => ?_⟩
  rw [accumulated_cons, accumulated_cons _ [_], walk_entry, walk_entry, walk_entry, ← h]
  simp only [put, Fin.val_zero, Fin.val_one, Fin.val_two, add_zero]
  have z : idx ≤ i → q i j = 0 := hq i j
  by_cases i0 : i = idx ∧ j = idx
  · have : ¬ (i = idx + 1 ∧ j = idx + 1) := by omega
    have : ¬ (i = idx + 2 ∧ j = idx + 2) := by omega
    simp [*]
  by_cases i1 : i = idx + 1 ∧ j = idx + 1
  · have : ¬ (i = idx + 2 ∧ j = idx + 2) := by omega
    simp [*]
  by_cases i2 : i = idx + 2 ∧ j = idx + 2
  · simp [*]
  simp [*]

/-- **The noise matrix is the covariance built up by the documented noises, and it is refused exactly for parameters
outside the documented ranges.** -/
theorem qMatrix_ok {m : NoiseModel} {dt : ℝ} {q : Table} (h : m.qMatrix dt = .ok q) :
    0 ≤ dt ∧ Valid m ∧ ∀ i j, q i j = accumulated (sources m) dt i j := by
  unfold NoiseModel.qMatrix at h
  by_cases hdt : dt < 0
  · simp [hdt] at h
  rw [if_neg hdt] at h
  rcases ha : axes m dt [0, 1, 2] (fun _ _ => 0) with e | q1
  · simp [ha] at h
  rw [ha] at h
  dsimp only at h
  obtain ⟨hp, e1⟩ := axes_ok ha
  have z1 : ∀ i j, 6 ≤ i → q1 i j = 0 := fun i j hi => by rw [e1, axes_outside (Or.inl hi)]
  rcases hs : scale m.drag dt 6 q1 with e | ⟨k, q2⟩
  · simp [hs] at h
  rw [hs] at h
  dsimp only at h
  obtain ⟨v2, k2, e2⟩ := scale_ok (fun j => z1 6 j (by omega)) hs
  have hk2 : k = srpIndex m := by rw [k2, srpIndex]; split_ifs <;> rfl
  have z2 : ∀ i j, k ≤ i → q2 i j = 0 := by
    intro i j hi
    have h6 : 6 ≤ i := by omega
    rw [e2, z1 i j h6, zero_add]
    cases hd : m.drag with
    | none => simp [accumulated_nil]
    | some g =>
      have := (v2 g hd).2
      simp only [Option.toList_some, List.map_cons, List.map_nil]
      rw [markov_entry _ _ _ this, if_neg]
      simp [hd] at k2
      omega
  rcases hs3 : scale m.srp dt k q2 with e | ⟨k', q3⟩
  · simp [hs3] at h
  rw [hs3] at h
  dsimp only at h
  obtain ⟨v3, k3, e3⟩ := scale_ok (fun j => z2 k j le_rfl) hs3
  have hk3 : k' = empiricalIndex m := by rw [k3, hk2, empiricalIndex]
  have z3 : ∀ i j, k' ≤ i → q3 i j = 0 := by
    intro i j hi
    have hk : k ≤ i := by omega
    rw [e3, z2 i j hk, zero_add]
    cases hd : m.srp with
    | none => simp [accumulated_nil]
    | some g =>
      have := (v3 g hd).2
      simp only [Option.toList_some, List.map_cons, List.map_nil]
      rw [markov_entry _ _ _ this, if_neg]
      simp [hd] at k3
      omega
  cases he : m.empirical with
  | none =>
    simp only [he, Except.ok.injEq] at h
    subst h
    refine ⟨not_lt.mp hdt, ⟨hp, v2, v3, by simp [he]⟩, fun i j => ?_⟩
    rw [e3, e2, e1]
    simp only [sources, accumulated_append, he, Option.toList_none, List.flatMap_nil, accumulated_nil, add_zero, hk2]
  | some s =>
    simp only [he] at h
    obtain ⟨v4, e4⟩ := whites_ok z3 h
    refine ⟨not_lt.mp hdt, ⟨hp, v2, v3, fun s' e => ?_⟩, fun i j => ?_⟩
    · rw [he] at e; simp only [Option.some.injEq] at e; subst e; exact v4
    · rw [e4, e3, e2, e1]
      simp only [sources, accumulated_append, he, Option.toList_some, List.flatMap_cons, List.flatMap_nil,
        List.append_nil, hk2, hk3]

theorem axes_total {m : NoiseModel} (h : ∀ i, 0 ≤ m.psd i) (dt : ℝ) : ∃ q, axes m dt [0, 1, 2] (fun _ _ => 0) = .ok q := by
  simp [axes, not_lt.mpr (h 0), not_lt.mpr (h 1), not_lt.mpr (h 2)]

theorem scale_total {o : Option GaussMarkov} (h : ∀ g, o = some g → 0 ≤ g.sigma ∧ 0 < g.tau) (dt : ℝ) (k : Nat)
    (q : Table) : ∃ r, scale o dt k q = .ok r := by
  cases o with
  | none => simp [scale]
  | some g =>
    obtain ⟨h1, h2⟩ := h g rfl
    simp [scale, GaussMarkov.varianceAfter, not_lt.mpr h1, not_le.mpr h2]

/-- Valid parameters and a duration that is not negative are accepted. -/
theorem qMatrix_total {m : NoiseModel} {dt : ℝ} (hdt : 0 ≤ dt) (hm : Valid m) : ∃ q, m.qMatrix dt = .ok q := by
  obtain ⟨h1, h2, h3, h4⟩ := hm
  obtain ⟨q1, e1⟩ := axes_total h1 dt
  obtain ⟨⟨k, q2⟩, e2⟩ := scale_total h2 dt 6 q1
  obtain ⟨⟨k', q3⟩, e3⟩ := scale_total h3 dt k q2
  unfold NoiseModel.qMatrix
  rw [if_neg (not_lt.mpr hdt), e1]
  dsimp only
  rw [e2]
  dsimp only
  rw [e3]
  dsimp only
  cases he : m.empirical with
  | none => exact ⟨_, rfl⟩
  | some s =>
    have := h4 s he
    simp [whites, not_lt.mpr (this 0), not_lt.mpr (this 1), not_lt.mpr (this 2)]

/-! ### Covariance -/

/-- What the noises of a list must satisfy. -/
def Regular (l : List Source) : Prop := ∀ s ∈ l, 0 ≤ s.density ∧ ∀ i, Continuous fun t => s.response t i

theorem accumulated_covariance {l : List Source} (hl : Regular l) {dt : ℝ} (hdt : 0 ≤ dt) (n : Nat) :
    Covariance (accumulated l dt) n := by
  constructor
  · intro i j
    simp only [accumulated]
    congr 1
    apply List.map_congr_left
    intro s _
    congr 1; funext t; ring
  · intro x
    induction l with
    | nil => simp [accumulated_nil]
    | cons s t ih =>
      have h1 := ih fun s' hs' => hl s' (List.mem_cons_of_mem _ hs')
      obtain ⟨hd, hc⟩ := hl s List.mem_cons_self
      have e : ∑ i ∈ range n, ∑ j ∈ range n, x i * accumulated (s :: t) dt i j * x j
          = ∑ i ∈ range n, ∑ j ∈ range n, x i * accumulated [s] dt i j * x j
            + ∑ i ∈ range n, ∑ j ∈ range n, x i * accumulated t dt i j * x j := by
        simp_rw [accumulated_cons s t, mul_add, add_mul, sum_add_distrib]
      rw [e]
      refine add_nonneg ?_ h1
      have e2 : ∑ i ∈ range n, ∑ j ∈ range n, x i * accumulated [s] dt i j * x j
          = ∫ u in (0 : ℝ)..dt, s.density * (∑ i ∈ range n, x i * s.response u i) ^ 2 := by
        have : ∀ u, s.density * (∑ i ∈ range n, x i * s.response u i) ^ 2
            = ∑ i ∈ range n, ∑ j ∈ range n, x i * (s.density * (s.response u i * s.response u j)) * x j := by
          intro u
          rw [pow_two, sum_mul_sum, mul_sum]
          refine sum_congr rfl fun i _ => ?_
          rw [mul_sum]
          exact sum_congr rfl fun j _ => by ring
        simp_rw [this]
        rw [intervalIntegral.integral_finset_sum]
        · refine sum_congr rfl fun i _ => ?_
          rw [intervalIntegral.integral_finset_sum]
          · refine sum_congr rfl fun j _ => ?_
            rw [intervalIntegral.integral_mul_const, intervalIntegral.integral_const_mul]
            simp [accumulated]
          · intro j _
            apply Continuous.intervalIntegrable
            have := hc i; have := hc j
            fun_prop
        · intro i _
          apply Continuous.intervalIntegrable
          refine continuous_finset_sum _ fun j _ => ?_
          have := hc i; have := hc j
          fun_prop
      rw [e2]
      exact intervalIntegral.integral_nonneg hdt fun u _ => mul_nonneg hd (sq_nonneg _)

theorem sources_regular {m : NoiseModel} (h : Valid m) : Regular (sources m) := by
  obtain ⟨h1, h2, h3, h4⟩ := h
  have ha : ∀ q a, 0 ≤ q → 0 ≤ (accelerationNoise q a).density ∧
      ∀ i, Continuous fun t => (accelerationNoise q a).response t i := by
    intro q a hq
    refine ⟨hq, fun i => ?_⟩
    simp only [accelerationNoise]
    split_ifs <;> fun_prop
  have hg : ∀ g : GaussMarkov, ∀ k, 0 ≤ g.sigma ∧ 0 < g.tau → 0 ≤ (markovNoise g.sigma g.tau k).density ∧
      ∀ i, Continuous fun t => (markovNoise g.sigma g.tau k).response t i := by
    intro g k ⟨_, ht⟩
    refine ⟨by simp only [markovNoise]; positivity, fun i => ?_⟩
    simp only [markovNoise]
    split_ifs <;> fun_prop
  have hw : ∀ s k, 0 ≤ (walkNoise s k).density ∧ ∀ i, Continuous fun t => (walkNoise s k).response t i := by
    intro s k
    refine ⟨by simp only [walkNoise]; positivity, fun i => ?_⟩
    simp only [walkNoise]
    split_ifs <;> fun_prop
  intro s hs
  simp only [sources, List.mem_append, List.mem_map, List.mem_flatMap, Option.mem_toList, List.mem_cons,
    List.not_mem_nil, or_false] at hs
  rcases hs with (((rfl | rfl | rfl) | ⟨g, hg', rfl⟩) | ⟨g, hg', rfl⟩) | ⟨v, _, rfl | rfl | rfl⟩
  · exact ha _ _ (h1 0)
  · exact ha _ _ (h1 1)
  · exact ha _ _ (h1 2)
  · exact hg _ _ (h2 g hg')
  · exact hg _ _ (h3 g hg')
  · exact hw _ _
  · exact hw _ _
  · exact hw _ _

end Verif.Pod
