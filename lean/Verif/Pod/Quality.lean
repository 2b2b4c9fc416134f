import Verif.Pod.Flow
import Mathlib.Algebra.Order.Chebyshev
import Mathlib.Algebra.BigOperators.Group.List.Lemmas
import Mathlib.Data.String.Basic

/-
Quality control: residual statistics and orbit comparison.
-/
namespace Verif.Pod

/-! ### Residual statistics -/

theorem foldl_min_spec (l : List ℝ) (z : ℝ) :
    (l.foldl (fun m x => if x < m then x else m) z) ∈ z :: l ∧
    ∀ x ∈ z :: l, (l.foldl (fun m x => if x < m then x else m) z) ≤ x := by
  induction l generalizing z with
  | nil => simp
  | cons a t ih =>
    simp only [List.foldl_cons]
    obtain ⟨h1, h2⟩ := ih (if a < z then a else z)
    by_cases h : a < z
    · simp only [h, if_true] at h1 h2 ⊢
      refine ⟨List.mem_cons_of_mem _ h1, fun x hx => ?_⟩
      rcases List.mem_cons.mp hx with rfl | hx
      · exact (h2 a List.mem_cons_self).trans h.le
      · exact h2 x hx
    · simp only [h, if_false] at h1 h2 ⊢
      refine ⟨?_, fun x hx => ?_⟩
      · rcases List.mem_cons.mp h1 with h1 | h1
        · rw [h1]; exact List.mem_cons_self
        · exact List.mem_cons_of_mem _ (List.mem_cons_of_mem _ h1)
      · rcases List.mem_cons.mp hx with rfl | hx
        · exact h2 x List.mem_cons_self
        · rcases List.mem_cons.mp hx with rfl | hx
          · exact (h2 z List.mem_cons_self).trans (not_lt.mp h)
          · exact h2 x (List.mem_cons_of_mem _ hx)

theorem foldl_max_spec (l : List ℝ) (z : ℝ) :
    (l.foldl (fun m x => if m < x then x else m) z) ∈ z :: l ∧
    ∀ x ∈ z :: l, x ≤ (l.foldl (fun m x => if m < x then x else m) z) := by
  induction l generalizing z with
  | nil => simp
  | cons a t ih =>
    simp only [List.foldl_cons]
    obtain ⟨h1, h2⟩ := ih (if z < a then a else z)
    by_cases h : z < a
    · simp only [h, if_true] at h1 h2 ⊢
      refine ⟨List.mem_cons_of_mem _ h1, fun x hx => ?_⟩
      rcases List.mem_cons.mp hx with rfl | hx
      · exact h.le.trans (h2 a List.mem_cons_self)
      · exact h2 x hx
    · simp only [h, if_false] at h1 h2 ⊢
      refine ⟨?_, fun x hx => ?_⟩
      · rcases List.mem_cons.mp h1 with h1 | h1
        · rw [h1]; exact List.mem_cons_self
        · exact List.mem_cons_of_mem _ (List.mem_cons_of_mem _ h1)
      · rcases List.mem_cons.mp hx with rfl | hx
        · exact h2 x List.mem_cons_self
        · rcases List.mem_cons.mp hx with rfl | hx
          · exact (not_lt.mp h).trans (h2 z List.mem_cons_self)
          · exact h2 x (List.mem_cons_of_mem _ hx)

theorem sum_bounds {l : List ℝ} {a b : ℝ} (h : ∀ x ∈ l, a ≤ x ∧ x ≤ b) : l.length * a ≤ l.sum ∧ l.sum ≤ l.length * b := by
  induction l with
  | nil => simp
  | cons x t ih =>
    obtain ⟨h1, h2⟩ := ih fun y hy => h y (List.mem_cons_of_mem _ hy)
    obtain ⟨h3, h4⟩ := h x List.mem_cons_self
    simp only [List.length_cons, List.sum_cons, Nat.cast_add, Nat.cast_one]
    constructor <;> nlinarith

theorem sq_sum_shift (l : List ℝ) (c : ℝ) : (l.map fun x => (x - c) * (x - c)).sum
    = (l.map fun x => x * x).sum - 2 * c * l.sum + l.length * c ^ 2 := by
  induction l with
  | nil => simp
  | cons x t ih =>
    simp only [List.map_cons, List.sum_cons, List.length_cons, Nat.cast_add, Nat.cast_one, ih]
    ring

theorem sq_sum_nonneg (l : List ℝ) (c : ℝ) : 0 ≤ (l.map fun x => (x - c) * (x - c)).sum := by
  apply List.sum_nonneg
  intro y hy
  obtain ⟨x, _, rfl⟩ := List.mem_map.mp hy
  exact mul_self_nonneg _

/-- The statistics of a list that is not empty. -/
structure Describes (s : Stats) (l : List ℝ) : Prop where
  count : s.n = l.length
  mean : s.mean * l.length = l.sum
  rms : 0 ≤ s.rms ∧ s.rms ^ 2 * l.length = (l.map fun x => x ^ 2).sum
  std : 0 ≤ s.std ∧ (1 < l.length → s.std ^ 2 * (l.length - 1) = (l.map fun x => (x - s.mean) ^ 2).sum) ∧
    (l.length = 1 → s.std = 0)
  min : s.min ∈ l ∧ ∀ x ∈ l, s.min ≤ x
  max : s.max ∈ l ∧ ∀ x ∈ l, x ≤ s.max

theorem stats_describe {l : List ℝ} (hl : l ≠ []) : Describes (Stats.fromSlice l) l := by
  cases l with
  | nil => exact absurd rfl hl
  | cons v t =>
    have npos : (0 : ℝ) < ((v :: t).length : ℝ) := by
      have : 0 < (v :: t).length := by simp
      exact_mod_cast this
    have sq : ∀ (l : List ℝ) (c : ℝ), (l.map fun x => (x - c) ^ 2).sum = (l.map fun x => (x - c) * (x - c)).sum := by
      intro l c; congr 1; apply List.map_congr_left; intro x _; ring
    have sq0 : ((v :: t).map fun x => x ^ 2).sum = ((v :: t).map fun x => x * x).sum := by
      congr 1; apply List.map_congr_left; intro x _; ring
    have nn : 0 ≤ ((v :: t).map fun x => x * x).sum := by
      have := sq_sum_nonneg (v :: t) 0
      simpa using this
    refine ⟨rfl, ?_, ⟨Real.sqrt_nonneg _, ?_⟩, ⟨?_, ?_, ?_⟩, foldl_min_spec t v, foldl_max_spec t v⟩
    · simp only [Stats.fromSlice]
      rw [div_mul_cancel₀ _ npos.ne']
    · simp only [Stats.fromSlice]
      rw [Real.sq_sqrt (div_nonneg nn npos.le), div_mul_cancel₀ _ npos.ne', sq0]
    · simp only [Stats.fromSlice]
      split_ifs
      · exact Real.sqrt_nonneg _
      · exact le_rfl
    · intro h1
      have : (0 : ℝ) < (v :: t).length - 1 := by
        have : (1 : ℝ) < (v :: t).length := by exact_mod_cast h1
        linarith
      simp only [Stats.fromSlice, if_pos h1]
      rw [Real.sq_sqrt (div_nonneg (sq_sum_nonneg _ _) this.le), div_mul_cancel₀ _ this.ne', sq]
    · intro h1
      simp only [Stats.fromSlice]
      rw [if_neg (by omega)]

/-- Two statistics that describe the same values are the same. -/
theorem describes_unique {s s' : Stats} {l l' : List ℝ} (hl : l ≠ []) (hp : l.Perm l') (h : Describes s l)
    (h' : Describes s' l') : s = s' := by
  have e := hp.length_eq
  have npos : (0 : ℝ) < (l.length : ℝ) := by exact_mod_cast List.length_pos_iff.mpr hl
  have hn : s.n = s'.n := by rw [h.count, h'.count, e]
  have hm : s.mean = s'.mean := by
    have := h'.mean
    rw [← e, ← hp.sum_eq, ← h.mean] at this
    exact (mul_right_cancel₀ npos.ne' this).symm
  have hr : s.rms = s'.rms := by
    have := h'.rms.2
    rw [← e, ← (hp.map _).sum_eq, ← h.rms.2] at this
    exact (pow_left_inj₀ h.rms.1 h'.rms.1 two_ne_zero).mp (mul_right_cancel₀ npos.ne' this).symm
  have hs : s.std = s'.std := by
    rcases Nat.lt_or_ge 1 l.length with h1 | h1
    · have a := h.std.2.1 h1
      have b := h'.std.2.1 (e ▸ h1)
      rw [← e, ← hm, ← (hp.map _).sum_eq, ← a] at b
      have : (0 : ℝ) < l.length - 1 := by
        have : (1 : ℝ) < l.length := by exact_mod_cast h1
        linarith
      exact (pow_left_inj₀ h.std.1 h'.std.1 two_ne_zero).mp (mul_right_cancel₀ this.ne' b).symm
    · have l1 : l.length = 1 := by have := List.length_pos_iff.mpr hl; omega
      rw [h.std.2.2 l1, h'.std.2.2 (e ▸ l1)]
  have hmin : s.min = s'.min := le_antisymm (h.min.2 _ (hp.mem_iff.mpr h'.min.1)) (h'.min.2 _ (hp.mem_iff.mp h.min.1))
  have hmax : s.max = s'.max := le_antisymm (h'.max.2 _ (hp.mem_iff.mp h.max.1)) (h.max.2 _ (hp.mem_iff.mpr h'.max.1))
  cases s; cases s'
  simp_all

/-- Mean, spread and RMS are tied together, and the mean lies between the extremes. -/
theorem describes_relations {s : Stats} {l : List ℝ} (hl : l ≠ []) (h : Describes s l) :
    s.rms ^ 2 = s.mean ^ 2 + s.std ^ 2 * (l.length - 1) / l.length ∧ s.min ≤ s.mean ∧ s.mean ≤ s.max ∧
    |s.mean| ≤ s.rms := by
  have npos : (0 : ℝ) < (l.length : ℝ) := by exact_mod_cast List.length_pos_iff.mpr hl
  have hvar : s.std ^ 2 * (l.length - 1) = (l.map fun x => (x - s.mean) ^ 2).sum := by
    rcases Nat.lt_or_ge 1 l.length with h1 | h1
    · exact h.std.2.1 h1
    · have l1 : l.length = 1 := by have := List.length_pos_iff.mpr hl; omega
      obtain ⟨x, rfl⟩ := List.length_eq_one_iff.mp l1
      have := h.mean
      simp at this
      simp [this]
  have e1 : (l.map fun x => (x - s.mean) ^ 2).sum = (l.map fun x => x ^ 2).sum - 2 * s.mean * l.sum + l.length * s.mean ^ 2 := by
    have := sq_sum_shift l s.mean
    simpa only [pow_two] using this
  have key : s.rms ^ 2 = s.mean ^ 2 + s.std ^ 2 * (l.length - 1) / l.length := by
    have a := h.rms.2
    have b := h.mean
    rw [e1, ← a, ← b] at hvar
    rw [hvar]
    field_simp
    ring
  obtain ⟨b1, b2⟩ := sum_bounds (l := l) fun x hx => ⟨h.min.2 x hx, h.max.2 x hx⟩
  rw [← h.mean] at b1 b2
  refine ⟨key, by nlinarith, by nlinarith, ?_⟩
  apply abs_le_of_sq_le_sq _ h.rms.1
  rw [key]
  have : (1 : ℝ) ≤ l.length := by exact_mod_cast List.length_pos_iff.mpr hl
  have : 0 ≤ s.std ^ 2 * (l.length - 1) / l.length := by
    apply div_nonneg _ npos.le
    exact mul_nonneg (sq_nonneg _) (by linarith)
  linarith

/-! ### Groups -/

theorem pushTo_keys (g : String) (v : ℝ) (b : List (String × List ℝ)) (hb : (b.map Prod.fst).Pairwise (· < ·)) :
    ((pushTo g v b).map Prod.fst).Pairwise (· < ·) ∧ ∀ k, k ∈ (pushTo g v b).map Prod.fst ↔ k = g ∨ k ∈ b.map Prod.fst := by
  induction b with
  | nil => simp [pushTo]
  | cons p t ih =>
    obtain ⟨k, l⟩ := p
    simp only [List.map_cons, List.pairwise_cons] at hb
    obtain ⟨i1, i2⟩ := ih hb.2
    rw [pushTo]
    by_cases h1 : g = k
    · rw [if_pos h1]
      simp only [List.map_cons, List.pairwise_cons]
      exact ⟨hb, fun k' => by simp [h1]⟩
    rw [if_neg h1]
    by_cases h2 : g < k
    · rw [if_pos h2]
      simp only [List.map_cons, List.pairwise_cons, List.mem_cons]
      refine ⟨⟨fun a ha => ?_, hb⟩, by simp⟩
      rcases ha with rfl | ha
      · exact h2
      · exact lt_trans h2 (hb.1 a ha)
    · rw [if_neg h2]
      simp only [List.map_cons, List.pairwise_cons, List.mem_cons]
      refine ⟨⟨fun a ha => ?_, i1⟩, fun k' => ?_⟩
      · rcases (i2 a).mp ha with rfl | ha
        · exact lt_of_le_of_ne (not_lt.mp h2) (Ne.symm h1)
        · exact hb.1 a ha
      · rw [i2]; tauto

theorem pushTo_mem (g : String) (v : ℝ) (b : List (String × List ℝ)) (hb : (b.map Prod.fst).Pairwise (· < ·))
    (k : String) (l : List ℝ) : (k, l) ∈ pushTo g v b ↔
      (k ≠ g ∧ (k, l) ∈ b) ∨ (k = g ∧ ((∃ l0, (g, l0) ∈ b ∧ l = l0 ++ [v]) ∨ (g ∉ b.map Prod.fst ∧ l = [v]))) := by
  induction b with
  | nil => simp [pushTo]
  | cons p t ih =>
    obtain ⟨k', l'⟩ := p
    simp only [List.map_cons, List.pairwise_cons] at hb
    have i := ih hb.2
    have nd : k' ∉ t.map Prod.fst := fun h => lt_irrefl _ (hb.1 _ h)
    rw [pushTo]
    by_cases h1 : g = k'
    · subst h1
      rw [if_pos rfl]
      have ne : ∀ l0, (g, l0) ∉ t := fun l0 h => nd (List.mem_map.mpr ⟨_, h, rfl⟩)
      by_cases hk : k = g
      · subst hk
        simp [ne]
      · simp [hk]
    rw [if_neg h1]
    by_cases h2 : g < k'
    · rw [if_pos h2]
      have ng : g ∉ ((k', l') :: t).map Prod.fst := by
        simp only [List.map_cons, List.mem_cons, not_or]
        exact ⟨h1, fun h => lt_asymm h2 (hb.1 _ h)⟩
      have ne : ∀ l0, (g, l0) ∉ (k', l') :: t := fun l0 h => ng (List.mem_map.mpr ⟨_, h, rfl⟩)
      by_cases hk : k = g
      · subst hk
        rw [List.mem_cons]
        constructor
        · rintro (h | h)
          · simp only [Prod.mk.injEq, true_and] at h
            exact Or.inr ⟨rfl, Or.inr ⟨ng, h⟩⟩
          · exact absurd h (ne _)
        · rintro (⟨h, _⟩ | ⟨_, ⟨l0, h, _⟩ | ⟨_, h⟩⟩)
          · exact absurd rfl h
          · exact absurd h (ne _)
          · left; rw [h]
      · simp [hk]
    · rw [if_neg h2, List.mem_cons, i]
      by_cases hk : k = g
      · subst hk
        simp only [ne_eq, not_true_eq_false, false_and, false_or, true_and, List.mem_cons, Prod.mk.injEq, h1,
          List.map_cons, false_or]
      · simp [hk]

/-- The map after all items: each group holds its own values in order, and there is a group for each label. -/
theorem buckets_spec (items : List (String × ℝ)) : ∀ b0 : List (String × List ℝ),
    (b0.map Prod.fst).Pairwise (· < ·) → (∀ p ∈ b0, p.2 ≠ []) →
    let b := items.foldl (fun b p => pushTo p.1 p.2 b) b0
    (b.map Prod.fst).Pairwise (· < ·) ∧ (∀ k, k ∈ b.map Prod.fst ↔ k ∈ b0.map Prod.fst ∨ k ∈ items.map Prod.fst) ∧
    (∀ k l, (k, l) ∈ b → (∃ l0, (k, l0) ∈ b0 ∧ l = l0 ++ (items.filter fun p => p.1 = k).map Prod.snd) ∨
      (k ∉ b0.map Prod.fst ∧ l = (items.filter fun p => p.1 = k).map Prod.snd)) := by
  induction items with
  | nil =>
    intro b0 h _
    refine ⟨h, by simp, fun k l hkl => Or.inl ⟨l, hkl, by simp⟩⟩
  | cons p t ih =>
    intro b0 h hne
    obtain ⟨k1, k2⟩ := pushTo_keys p.1 p.2 b0 h
    have km := pushTo_mem p.1 p.2 b0 h
    have ne' : ∀ q ∈ pushTo p.1 p.2 b0, q.2 ≠ [] := by
      rintro ⟨k, l⟩ hq
      rcases (km k l).mp hq with ⟨_, hq⟩ | ⟨_, ⟨l0, _, rfl⟩ | ⟨_, rfl⟩⟩
      · exact hne _ hq
      · simp
      · simp
    obtain ⟨i1, i2, i3⟩ := ih (pushTo p.1 p.2 b0) k1 ne'
    refine ⟨i1, fun k => ?_, fun k l hkl => ?_⟩
    · rw [List.foldl_cons, i2, k2]
      simp only [List.map_cons, List.mem_cons]
      tauto
    · rw [List.foldl_cons] at hkl
      rcases i3 k l hkl with ⟨l0, m, e⟩ | ⟨m, e⟩
      · rcases (km k l0).mp m with ⟨hk, m⟩ | ⟨hk, ⟨l1, m, e1⟩ | ⟨m, e1⟩⟩
        · left
          refine ⟨l0, m, ?_⟩
          rw [e, List.filter_cons_of_neg]
          simpa using Ne.symm hk
        · left
          refine ⟨l1, hk ▸ m, ?_⟩
          rw [e, e1, List.filter_cons_of_pos (by simpa using hk.symm), List.map_cons, List.append_assoc]
          rfl
        · right
          refine ⟨hk ▸ m, ?_⟩
          rw [e, e1, List.filter_cons_of_pos (by simpa using hk.symm), List.map_cons]
          rfl
      · have : k ≠ p.1 ∧ k ∉ b0.map Prod.fst := by
          rw [k2] at m; push Not at m; exact m
        right
        refine ⟨this.2, ?_⟩
        rw [e, List.filter_cons_of_neg]
        simpa using Ne.symm this.1

/-- **Groups: one per label, in order, each with the statistics of exactly its own values.** -/
theorem groups_spec (items : List (String × ℝ)) :
    ((fromPairs items).1.map Prod.fst).Pairwise (· < ·) ∧
    (∀ k, k ∈ (fromPairs items).1.map Prod.fst ↔ k ∈ items.map Prod.fst) ∧
    (∀ k s, (k, s) ∈ (fromPairs items).1 → s = Stats.fromSlice ((items.filter fun p => p.1 = k).map Prod.snd)) := by
  obtain ⟨h1, h2, h3⟩ := buckets_spec items [] (by simp) (by simp)
  have e : (fromPairs items).1.map Prod.fst = (items.foldl (fun b p => pushTo p.1 p.2 b) []).map Prod.fst := by
    simp [fromPairs, Function.comp_def]
  refine ⟨e ▸ h1, fun k => ?_, fun k s hs => ?_⟩
  · rw [e, h2]; simp
  · simp only [fromPairs, List.mem_map, Prod.mk.injEq] at hs
    obtain ⟨⟨k', l⟩, m, rfl, rfl⟩ := hs
    rcases h3 k' l m with ⟨_, m', _⟩ | ⟨_, e⟩
    · simp at m'
    · rw [e]

/-! ### Orbit comparison -/

/-- The differences exist unless some reference state used has no local frame. -/
theorem rtnDiff_isSome (f : OrbitState → Option (Vec3 → Vec3)) (e r : List OrbitState) :
    (rtnDiff f e r).isSome = true ↔ ∀ s ∈ r.take e.length, (f s).isSome = true := by
  induction e generalizing r with
  | nil => simp [rtnDiff]
  | cons a t ih =>
    cases r with
    | nil => simp [rtnDiff]
    | cons b u =>
      rw [rtnDiff]
      simp only [List.length_cons, List.take_succ_cons, List.mem_cons, forall_eq_or_imp, ← ih u]
      cases hb : f b with
      | none => simp
      | some g =>
        simp only
        cases rtnDiff f t u <;> simp

theorem rtnDiff_length {f : OrbitState → Option (Vec3 → Vec3)} {e r : List OrbitState} {l : List RtnDiff}
    (h : rtnDiff f e r = some l) : l.length = min e.length r.length := by
  induction e generalizing r l with
  | nil => simp only [rtnDiff, Option.some.injEq] at h; simp [← h]
  | cons a t ih =>
    cases r with
    | nil => simp only [rtnDiff, Option.some.injEq] at h; simp [← h]
    | cons b u =>
      rw [rtnDiff] at h
      cases hb : f b with
      | none => simp [hb] at h
      | some g =>
        rw [hb] at h
        simp only at h
        cases hr : rtnDiff f t u with
        | none => simp [hr] at h
        | some l' =>
          rw [hr] at h
          simp only [Option.some.injEq] at h
          rw [← h, List.length_cons, ih hr, List.length_cons, List.length_cons]
          omega

theorem norm_sq_vec (v : Vec3) : ‖v‖ ^ 2 = v 0 ^ 2 + v 1 ^ 2 + v 2 ^ 2 := by
  rw [EuclideanSpace.norm_sq_eq, Fin.sum_univ_three]
  simp

/-- The squared differences are those of the positions, when the local frame is a rotation. -/
theorem rtnDiff_squares {f : OrbitState → Option (Vec3 → Vec3)} (hf : ∀ s g, f s = some g → ∀ v, ‖g v‖ = ‖v‖)
    {e r : List OrbitState} {l : List RtnDiff} (h : rtnDiff f e r = some l) :
    l.map (fun d => d.r * d.r + d.t * d.t + d.n * d.n)
      = List.zipWith (fun a b => (1000 * ‖a.position - b.position‖) ^ 2) e r := by
  induction e generalizing r l with
  | nil => simp only [rtnDiff, Option.some.injEq] at h; simp [← h]
  | cons a t ih =>
    cases r with
    | nil => simp only [rtnDiff, Option.some.injEq] at h; simp [← h]
    | cons b u =>
      rw [rtnDiff] at h
      cases hb : f b with
      | none => simp [hb] at h
      | some g =>
        rw [hb] at h
        simp only at h
        cases hr : rtnDiff f t u with
        | none => simp [hr] at h
        | some l' =>
          rw [hr] at h
          simp only [Option.some.injEq] at h
          rw [← h, List.map_cons, ih hr, List.zipWith_cons_cons]
          congr 1
          rw [mul_pow, ← hf b g hb, norm_sq_vec]
          ring

theorem sum_three (l : List RtnDiff) : (l.map fun d => d.r * d.r).sum + (l.map fun d => d.t * d.t).sum
    + (l.map fun d => d.n * d.n).sum = (l.map fun d => d.r * d.r + d.t * d.t + d.n * d.n).sum := by
  induction l with
  | nil => simp
  | cons a t ih =>
    simp only [List.map_cons, List.sum_cons]
    linarith

theorem sq_nonneg_sum (l : List RtnDiff) (f : RtnDiff → ℝ) : 0 ≤ (l.map fun d => f d * f d).sum := by
  apply List.sum_nonneg
  intro y hy
  obtain ⟨x, _, rfl⟩ := List.mem_map.mp hy
  exact mul_self_nonneg _

/-- The three-dimensional RMS is the RMS of the three components together. -/
theorem summary_rms (l : List RtnDiff) (hl : l ≠ []) : (rtnSummary l).n = l.length ∧ 0 ≤ (rtnSummary l).rms3d ∧
    (rtnSummary l).rms3d ^ 2 = (l.map fun d => d.r * d.r + d.t * d.t + d.n * d.n).sum / l.length ∧
    (rtnSummary l).rmsR ^ 2 = (l.map fun d => d.r * d.r).sum / l.length ∧
    (rtnSummary l).rmsT ^ 2 = (l.map fun d => d.t * d.t).sum / l.length ∧
    (rtnSummary l).rmsN ^ 2 = (l.map fun d => d.n * d.n).sum / l.length := by
  have hne : ¬ l.length = 0 := by simpa using hl
  have npos : (0 : ℝ) ≤ (l.length : ℝ) := Nat.cast_nonneg _
  have q : ∀ f : RtnDiff → ℝ, Real.sqrt ((l.map fun d => f d * f d).sum / l.length)
      * Real.sqrt ((l.map fun d => f d * f d).sum / l.length) = (l.map fun d => f d * f d).sum / l.length :=
    fun f => Real.mul_self_sqrt (div_nonneg (sq_nonneg_sum l f) npos)
  unfold rtnSummary
  rw [if_neg hne]
  refine ⟨rfl, Real.sqrt_nonneg _, ?_, ?_, ?_, ?_⟩
  · simp only
    rw [q, q, q, Real.sq_sqrt, ← add_div, ← add_div, sum_three]
    exact add_nonneg (add_nonneg (div_nonneg (sq_nonneg_sum l _) npos) (div_nonneg (sq_nonneg_sum l _) npos))
      (div_nonneg (sq_nonneg_sum l _) npos)
  · simp only; rw [pow_two, q]
  · simp only; rw [pow_two, q]
  · simp only; rw [pow_two, q]

end Verif.Pod
