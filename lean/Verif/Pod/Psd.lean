import Verif.Pod.Noise

/-
The noise of a step does not depend on how the step is cut, and the test for positive semi-definiteness never
rejects a covariance.
-/
namespace Verif.Pod
open Finset Spec

/-! ### Cutting a step -/

/-- The noise-free motion as a sum of two terms. -/
theorem advance_linear (m : NoiseModel) (b : ℝ) (i : Nat) :
    ∃ α β : ℝ, ∀ v, advance m b v i = α * v i + β * v (i + 3) := by
  unfold advance
  split_ifs
  · exact ⟨1, b, fun v => by ring⟩
  · exact ⟨m.drag.elim 1 fun g => Real.exp (-b / g.tau), 0, fun v => by ring⟩
  · exact ⟨m.srp.elim 1 fun g => Real.exp (-b / g.tau), 0, fun v => by ring⟩
  · exact ⟨1, 0, fun v => by ring⟩

theorem source_cut {m : NoiseModel} {s : Source} (hc : ∀ i, Continuous fun t => s.response t i) {a b : ℝ}
    (h : ∀ t i, s.response (t + b) i = advance m b (s.response t) i) (i j : Nat) :
    accumulated [s] (a + b) i j =
      advance m b (fun k => advance m b (fun l => accumulated [s] a k l) j) i + accumulated [s] b i j := by
  obtain ⟨α, β, hi⟩ := advance_linear m b i
  obtain ⟨γ, δ, hj⟩ := advance_linear m b j
  rw [hi, hj, hj]
  simp only [accumulated, List.map_cons, List.map_nil, List.sum_cons, List.sum_nil, add_zero]
  have ii : ∀ k l u v, IntervalIntegrable (fun t => s.density * (s.response t k * s.response t l)) MeasureTheory.volume u v := by
    intro k l u v
    apply Continuous.intervalIntegrable
    have := hc k; have := hc l
    fun_prop
  rw [← intervalIntegral.integral_add_adjacent_intervals (ii i j 0 b) (ii i j b (a + b)), add_comm]
  congr 1
  have e : ∫ t in b..a + b, s.density * (s.response t i * s.response t j)
      = ∫ t in (0 : ℝ)..a, s.density * (s.response (t + b) i * s.response (t + b) j) := by
    have := intervalIntegral.integral_comp_add_right (a := 0) (b := a)
      (fun t => s.density * (s.response t i * s.response t j)) b
    rw [this, zero_add]
  rw [e]
  have e2 : ∀ t, s.density * (s.response (t + b) i * s.response (t + b) j)
      = (α * γ) * (s.density * (s.response t i * s.response t j))
        + (α * δ) * (s.density * (s.response t i * s.response t (j + 3)))
        + (β * γ) * (s.density * (s.response t (i + 3) * s.response t j))
        + (β * δ) * (s.density * (s.response t (i + 3) * s.response t (j + 3))) := by
    intro t
    rw [h, h, hi, hj]
    ring
  simp_rw [e2]
  have l1 : ∀ c k l, ∫ t in (0 : ℝ)..a, c * (s.density * (s.response t k * s.response t l))
      = c * ∫ t in (0 : ℝ)..a, s.density * (s.response t k * s.response t l) :=
    fun c k l => intervalIntegral.integral_const_mul _ _
  rw [intervalIntegral.integral_add, intervalIntegral.integral_add, intervalIntegral.integral_add, l1, l1, l1, l1]
  · ring
  · exact (ii _ _ _ _).const_mul _
  · exact (ii _ _ _ _).const_mul _
  · exact ((ii _ _ _ _).const_mul _).add ((ii _ _ _ _).const_mul _)
  · exact (ii _ _ _ _).const_mul _
  · exact (((ii _ _ _ _).const_mul _).add ((ii _ _ _ _).const_mul _)).add ((ii _ _ _ _).const_mul _)
  · exact (ii _ _ _ _).const_mul _

theorem accumulated_cut {m : NoiseModel} {l : List Source} (hl : Regular l) {a b : ℝ}
    (h : ∀ s ∈ l, ∀ t i, s.response (t + b) i = advance m b (s.response t) i) (i j : Nat) :
    accumulated l (a + b) i j =
      advance m b (fun k => advance m b (fun l' => accumulated l a k l') j) i + accumulated l b i j := by
  obtain ⟨α, β, hi⟩ := advance_linear m b i
  obtain ⟨γ, δ, hj⟩ := advance_linear m b j
  induction l with
  | nil =>
    rw [hi, hj, hj]
    simp [accumulated_nil]
  | cons s t ih =>
    have h1 := ih (fun s' hs' => hl s' (List.mem_cons_of_mem _ hs')) (fun s' hs' => h s' (List.mem_cons_of_mem _ hs'))
    have h2 := source_cut (a := a) (hl s List.mem_cons_self).2 (h s List.mem_cons_self) i j
    rw [accumulated_cons, h1, h2, accumulated_cons s t b]
    rw [hi, hi, hi, hj, hj, hj, hj, hj, hj]
    simp only [accumulated_cons s t]
    ring

theorem srpIndex_cases (m : NoiseModel) :
    (m.drag.isSome ∧ srpIndex m = 7) ∨ (m.drag = none ∧ srpIndex m = 6) := by
  unfold srpIndex
  cases m.drag <;> simp

/-- Each noise of the model follows the noise-free motion. -/
theorem sources_flow {m : NoiseModel} (b : ℝ) : ∀ s ∈ sources m, ∀ t i,
    s.response (t + b) i = advance m b (s.response t) i := by
  intro s hs t i
  simp only [sources, List.mem_append, List.mem_map, List.mem_flatMap, Option.mem_toList, List.mem_cons,
    List.not_mem_nil, or_false] at hs
  have acc : ∀ q a, a < 3 → s = accelerationNoise q a → s.response (t + b) i = advance m b (s.response t) i := by
    rintro q a ha rfl
    have hk : 6 ≤ srpIndex m := by rcases srpIndex_cases m with ⟨_, e⟩ | ⟨_, e⟩ <;> omega
    simp only [accelerationNoise, advance]
    by_cases h1 : i = a
    · have : i + 3 = a + 3 := by omega
      have : i < 3 := by omega
      have : ¬ (i + 3 = a) := by omega
      simp [*]
    by_cases h2 : i = a + 3
    · have e1 : ¬ i < 3 := by omega
      have e2 : ¬ (i = 6 ∧ m.drag.isSome = true) := by omega
      have e3 : ¬ (i = srpIndex m ∧ m.srp.isSome = true) := by omega
      rw [if_neg h1, if_pos h2, if_neg e1, if_neg e2, if_neg e3, if_neg h1]
    · by_cases h3 : i < 3
      · have : ¬ (i + 3 = a) := by omega
        have : ¬ (i + 3 = a + 3) := by omega
        simp [*]
      · simp [h1, h2, h3]
  rcases hs with (((h | h | h) | ⟨g, hg', rfl⟩) | ⟨g, hg', rfl⟩) | ⟨v, hv, h⟩
  · exact acc _ 0 (by omega) h
  · exact acc _ 1 (by omega) h
  · exact acc _ 2 (by omega) h
  · simp only [markovNoise, advance, hg', Option.isSome_some, Option.elim_some]
    by_cases h1 : i = 6
    · simp only [h1, show ¬ (6 < 3) by omega, if_false, if_true, true_and, and_self]
      rw [← Real.exp_add]; congr 1; ring
    · have : i < 3 → ¬ (i + 3 = 6) := by omega
      simp only [h1, if_false, mul_zero]
      split_ifs <;> simp_all
  · simp only [markovNoise, advance, hg', Option.isSome_some, Option.elim_some]
    have hk : ¬ (srpIndex m < 3) := by rcases srpIndex_cases m with ⟨_, e⟩ | ⟨_, e⟩ <;> omega
    have hk2 : ¬ (srpIndex m = 6 ∧ m.drag.isSome = true) := by
      rcases srpIndex_cases m with ⟨_, e⟩ | ⟨e', e⟩
      · omega
      · simp [e']
    by_cases h1 : i = srpIndex m
    · subst h1
      rw [if_pos rfl, if_neg hk, if_neg hk2, if_pos ⟨rfl, trivial⟩, if_pos rfl, ← Real.exp_add]
      congr 1; ring
    · have : i < 3 → ¬ (i + 3 = srpIndex m) := by
        rcases srpIndex_cases m with ⟨_, e⟩ | ⟨_, e⟩ <;> omega
      simp only [h1, if_false, mul_zero]
      split_ifs <;> simp_all
  · obtain ⟨k, hk, w, rfl⟩ : ∃ k, empiricalIndex m ≤ k ∧ ∃ w, s = walkNoise w k := by
      rcases h with rfl | rfl | rfl
      · exact ⟨_, le_rfl, _, rfl⟩
      · exact ⟨_, by omega, _, rfl⟩
      · exact ⟨_, by omega, _, rfl⟩
    simp only [walkNoise, advance]
    have k1 : srpIndex m ≤ k := by unfold empiricalIndex at hk; omega
    have k6 : 6 ≤ k := by rcases srpIndex_cases m with ⟨_, e⟩ | ⟨_, e⟩ <;> omega
    have k2 : m.srp.isSome = true → srpIndex m < k := by
      intro h
      unfold empiricalIndex at hk
      rw [if_pos h] at hk
      omega
    have k3 : m.drag.isSome = true → 6 < k := by
      intro h
      rcases srpIndex_cases m with ⟨_, e⟩ | ⟨e', e⟩
      · omega
      · simp [e'] at h
    by_cases h1 : i = k
    · subst h1
      have n1 : ¬ i < 3 := by omega
      have n2 : ¬ (i = 6 ∧ m.drag.isSome = true) := by rintro ⟨e, h⟩; have := k3 h; omega
      have n3 : ¬ (i = srpIndex m ∧ m.srp.isSome = true) := by rintro ⟨e, h⟩; have := k2 h; omega
      simp [n1, n2, n3]
    · have : i < 3 → ¬ (i + 3 = k) := by omega
      simp only [h1, if_false, mul_zero]
      split_ifs <;> simp_all

/-! ### The test -/

theorem before_put (l : Table) (i j r : Nat) (v : ℝ) (k : Nat) : before (put l r i v) i k = before l i k := by
  unfold before
  refine sum_congr rfl fun c hc => ?_
  have : c ≠ i := (mem_range.mp hc).ne
  simp [put, this]

theorem column_eq (a : Table) (i : Nat) (p : ℝ) (js : List Nat) (l : Table) (r c : Nat) :
    column a i p js l r c = if c = i ∧ r ∈ js then (a r i - before l i r) / p else l r c := by
  induction js generalizing l with
  | nil => simp [column]
  | cons j t ih =>
    rw [column, ih, before_put _ _ i]
    by_cases hc : c = i
    · by_cases hr : r ∈ t
      · simp [hc, hr]
      · by_cases hj : r = j
        · subst hj; simp [hc, hr, put]
        · simp [hc, hr, hj, put]
    · simp [hc, put]

theorem zeroColumn_eq (a : Table) (i : Nat) (js : List Nat) (l : Table) (h : ∀ j ∈ js, a j i - before l i j = 0) :
    ∃ l', zeroColumn a i js l = some l' ∧ ∀ r c, l' r c = if c = i ∧ r ∈ js then 0 else l r c := by
  induction js generalizing l with
  | nil => exact ⟨l, rfl, by simp⟩
  | cons j t ih =>
    obtain ⟨l', e, hl⟩ := ih (put l j i 0) fun k hk => by
      rw [before_put _ _ i]; exact h k (List.mem_cons_of_mem _ hk)
    refine ⟨l', ?_, fun r c => ?_⟩
    · rw [zeroColumn, h j List.mem_cons_self, abs_zero, if_neg (by norm_num)]
      exact e
    · rw [hl]
      by_cases hc : c = i
      · by_cases hr : r ∈ t
        · simp [hc, hr]
        · by_cases hj : r = j
          · subst hj; simp [hc, put]
          · simp [hc, hr, hj, put]
      · simp [hc, put]

/-- The quadratic form of a table. -/
def form (s : Table) (n : Nat) (x : Nat → ℝ) : ℝ := ∑ j ∈ range n, ∑ k ∈ range n, x j * s j k * x k

theorem form_shift {s : Table} {n i : Nat} (hi : i < n) (hs : ∀ j k, s j k = s k j) (x : Nat → ℝ) (c : ℝ) :
    form s n (fun j => x j + if j = i then c else 0)
      = form s n x + 2 * c * ∑ j ∈ range n, x j * s j i + c ^ 2 * s i i := by
  have m : i ∈ range n := mem_range.mpr hi
  unfold form
  have e : ∀ j k, (x j + if j = i then c else 0) * s j k * (x k + if k = i then c else 0)
      = x j * s j k * x k + (if k = i then c * (x j * s j k) else 0) + (if j = i then c * (x k * s j k) else 0)
        + (if j = i then if k = i then c ^ 2 * s j k else 0 else 0) := by
    intro j k
    split_ifs <;> ring
  simp_rw [e, sum_add_distrib]
  have e1 : ∑ j ∈ range n, ∑ k ∈ range n, (if k = i then c * (x j * s j k) else 0) = c * ∑ j ∈ range n, x j * s j i := by
    rw [mul_sum]
    exact sum_congr rfl fun j _ => by rw [sum_ite_eq' (range n) i]; simp [m]
  have e2 : ∑ j ∈ range n, ∑ k ∈ range n, (if j = i then c * (x k * s j k) else 0) = c * ∑ k ∈ range n, x k * s k i := by
    rw [sum_comm, mul_sum]
    refine sum_congr rfl fun k _ => ?_
    rw [sum_ite_eq' (range n) i]
    simp [m, hs i k]
  have e3 : ∑ j ∈ range n, ∑ k ∈ range n, (if j = i then if k = i then c ^ 2 * s j k else 0 else 0) = c ^ 2 * s i i := by
    rw [sum_comm]
    have : ∀ k, ∑ j ∈ range n, (if j = i then if k = i then c ^ 2 * s j k else 0 else 0)
        = if k = i then c ^ 2 * s i k else 0 := by
      intro k; rw [sum_ite_eq' (range n) i]; simp [m]
    simp_rw [this]
    rw [sum_ite_eq' (range n) i]; simp [m]
  rw [e1, e2, e3]
  ring

/-- What is left of the table after the first `i` columns of the factor. -/
def rest (a l : Table) (i : Nat) : Table := fun j k => a j k - ∑ m ∈ range i, l j m * l k m

theorem rest_symm {a : Table} (ha : ∀ j k, a j k = a k j) (l : Table) (i j k : Nat) : rest a l i j k = rest a l i k j := by
  unfold rest
  rw [ha j k]
  congr 1
  exact sum_congr rfl fun m _ => by ring

theorem pivots_complete {a : Table} (ha : ∀ j k, a j k = a k j) (n : Nat) (d : Nat) : ∀ i l, i + d = n →
    (∀ x : Nat → ℝ, (∀ j < i, x j = 0) → 0 ≤ form (rest a l i) n x) → pivots a n (List.range' i d) l = true := by
  induction d with
  | zero => intro i l _ _; rfl
  | succ d ih =>
    intro i l hn hp
    have hi : i < n := by omega
    have m : i ∈ range n := mem_range.mpr hi
    set S := rest a l i with hS
    have sym : ∀ j k, S j k = S k j := rest_symm ha l i
    have hb : ∀ j, a j i - before l i j = S j i := fun j => by rw [hS]; rfl
    have shift : ∀ x : Nat → ℝ, (∀ j < i, x j = 0) → ∀ c : ℝ,
        0 ≤ form S n x + 2 * c * ∑ j ∈ range n, x j * S j i + c ^ 2 * S i i := by
      intro x hx c
      rw [← form_shift hi sym]
      refine hp _ fun j hj => ?_
      simp [hx j hj, hj.ne]
    have sii : 0 ≤ S i i := by
      have := shift (fun _ => 0) (fun _ _ => rfl) 1
      simpa [form] using this
    rw [List.range'_succ, pivots]
    rw [hb i, if_neg (by linarith : ¬ S i i < -1e-18), max_eq_left sii]
    have bput : ∀ j, before (put l i i (Real.sqrt (S i i))) i j = before l i j := fun j => before_put _ _ i _ _ _
    have len : n - (i + 1) = d := by omega
    by_cases hz : S i i = 0
    · have col : ∀ j, j ∈ List.range' (i + 1) d → S j i = 0 := by
        intro j hj
        rw [List.mem_range'_1] at hj
        have jn : j ∈ range n := mem_range.mpr (by omega)
        by_contra hne
        have := shift (fun k => if k = j then 1 else 0) (fun k hk => by simp; omega) (-(form S n (fun k => if k = j then 1 else 0) + 1) / (2 * S j i))
        have e : ∑ k ∈ range n, (if k = j then (1 : ℝ) else 0) * S k i = S j i := by
          simp_rw [ite_mul, one_mul, zero_mul]
          rw [sum_ite_eq' (range n) j]; simp [jn]
        rw [e, hz, mul_zero, add_zero] at this
        have e2 : 2 * (-(form S n (fun k => if k = j then 1 else 0) + 1) / (2 * S j i)) * S j i
            = -(form S n (fun k => if k = j then 1 else 0) + 1) := by field_simp
        rw [e2] at this
        linarith
      obtain ⟨l', e, hl⟩ := zeroColumn_eq a i (List.range' (i + 1) (n - (i + 1))) (put l i i (Real.sqrt (S i i)))
        fun j hj => by rw [bput, hb]; exact col j (by rwa [len] at hj)
      simp only [hz, Real.sqrt_zero, if_true] at e hl ⊢
      rw [e]
      refine ih (i + 1) l' (by omega) fun x hx => ?_
      have : form (rest a l' (i + 1)) n x = form S n x := by
        unfold form
        refine sum_congr rfl fun j hj => sum_congr rfl fun k hk => ?_
        by_cases hj' : j < i + 1
        · simp [hx j hj']
        by_cases hk' : k < i + 1
        · simp [hx k hk']
        congr 2
        rw [hS]
        unfold rest
        rw [sum_range_succ]
        have jm : j ∈ List.range' (i + 1) (n - (i + 1)) := by
          rw [List.mem_range'_1]; have := mem_range.mp hj; omega
        have e1 : l' j i = 0 := by rw [hl]; simp [jm]
        have e2 : ∀ r, ∀ c ∈ range i, l' r c = l r c := by
          intro r c hc
          have := (mem_range.mp hc).ne
          rw [hl]; simp [put, this]
        rw [e1, zero_mul, add_zero]
        congr 1
        exact sum_congr rfl fun c hc => by rw [e2 j c hc, e2 k c hc]
      rw [this]
      exact hp x fun j hj => hx j (by omega)
    · have spos : 0 < S i i := lt_of_le_of_ne sii (Ne.symm hz)
      have ppos : 0 < Real.sqrt (S i i) := Real.sqrt_pos.mpr spos
      rw [if_neg ppos.ne']
      refine ih (i + 1) _ (by omega) fun x hx => ?_
      have : form (rest a (column a i (Real.sqrt (S i i)) (List.range' (i + 1) (n - (i + 1)))
            (put l i i (Real.sqrt (S i i)))) (i + 1)) n x
          = form S n x - (∑ j ∈ range n, x j * S j i) ^ 2 / S i i := by
        have : (∑ j ∈ range n, x j * S j i) ^ 2 / S i i
            = ∑ j ∈ range n, ∑ k ∈ range n, x j * (S j i * S k i / S i i) * x k := by
          rw [pow_two, sum_mul_sum, sum_div]
          refine sum_congr rfl fun j _ => ?_
          rw [sum_div]
          exact sum_congr rfl fun k _ => by ring
        rw [this]
        unfold form
        rw [← sum_sub_distrib]
        refine sum_congr rfl fun j hj => ?_
        rw [← sum_sub_distrib]
        refine sum_congr rfl fun k hk => ?_
        by_cases hj' : j < i + 1
        · simp [hx j hj']
        by_cases hk' : k < i + 1
        · simp [hx k hk']
        have mem : ∀ r, r ∈ range n → ¬ r < i + 1 → r ∈ List.range' (i + 1) (n - (i + 1)) := by
          intro r hr hr'
          rw [List.mem_range'_1]; have := mem_range.mp hr; omega
        have e1 : ∀ r, r ∈ range n → ¬ r < i + 1 → column a i (Real.sqrt (S i i)) (List.range' (i + 1) (n - (i + 1)))
            (put l i i (Real.sqrt (S i i))) r i = S r i / Real.sqrt (S i i) := by
          intro r hr hr'
          rw [column_eq, if_pos ⟨rfl, mem r hr hr'⟩, bput, hb]
        have e2 : ∀ r, ∀ c ∈ range i, column a i (Real.sqrt (S i i)) (List.range' (i + 1) (n - (i + 1)))
            (put l i i (Real.sqrt (S i i))) r c = l r c := by
          intro r c hc
          have := (mem_range.mp hc).ne
          rw [column_eq]; simp [put, this]
        have e3 : rest a (column a i (Real.sqrt (S i i)) (List.range' (i + 1) (n - (i + 1)))
            (put l i i (Real.sqrt (S i i)))) (i + 1) j k = S j k - S j i * S k i / S i i := by
          rw [rest, sum_range_succ, e1 j hj hj', e1 k hk hk', sum_congr rfl fun c hc => by rw [e2 j c hc, e2 k c hc]]
          have : S j i / Real.sqrt (S i i) * (S k i / Real.sqrt (S i i)) = S j i * S k i / S i i := by
            rw [div_mul_div_comm, Real.mul_self_sqrt sii]
          rw [this, hS]
          unfold rest
          ring
        rw [e3]
        ring
      rw [this]
      have := shift x (fun j hj => hx j (by omega)) (-(∑ j ∈ range n, x j * S j i) / S i i)
      have e : 2 * (-(∑ j ∈ range n, x j * S j i) / S i i) * ∑ j ∈ range n, x j * S j i
          + (-(∑ j ∈ range n, x j * S j i) / S i i) ^ 2 * S i i = -((∑ j ∈ range n, x j * S j i) ^ 2 / S i i) := by
        field_simp
        ring
      linarith

/-- **The test accepts every covariance.** -/
theorem matrixIsPsd_complete {a : Table} {n : Nat} (h : Covariance a n) : matrixIsPsd a n = true := by
  unfold matrixIsPsd
  rw [List.range_eq_range']
  refine pivots_complete h.1 n n 0 _ (by omega) fun x _ => ?_
  have : rest a (fun _ _ => 0) 0 = a := by funext j k; simp [rest]
  rw [this]
  exact h.2 x

end Verif.Pod
