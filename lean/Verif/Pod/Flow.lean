import Verif.Pod.Psd
import Mathlib.Analysis.Calculus.FDeriv.Comp
import Mathlib.Analysis.Calculus.Deriv.Slope
import Mathlib.Topology.Algebra.Module.FiniteDimension
import Mathlib.Analysis.Calculus.Deriv.Shift

/-
Propagation: sub-steps, accumulated state-transition matrices, parameter derivatives, and the noise schedule.
-/
namespace Verif.Pod
open Spec

/-! ### Noise schedule -/

/-- The end of the first `k` segments. -/
def endOf (l : List Segment) (k : Nat) : ℝ := ((l.take k).map Segment.duration).sum

theorem lookUp_some {l : List Segment} (hd : ∀ s ∈ l, 0 ≤ s.duration) {t c : ℝ} {k : Nat} {s : Segment}
    (hk : l[k]? = some s) (h1 : c + endOf l k ≤ t) (h2 : t < c + endOf l (k + 1)) :
    lookUp t c l = some (s.pos, s.vel) := by
  induction l generalizing c k with
  | nil => simp at hk
  | cons a r ih =>
    cases k with
    | zero =>
      simp only [List.getElem?_cons_zero, Option.some.injEq] at hk
      subst hk
      simp only [endOf, List.take_succ_cons, List.take_zero, List.map_cons, List.map_nil, List.sum_cons,
        List.sum_nil, add_zero] at h2
      rw [lookUp, if_pos h2]
    | succ k =>
      simp only [List.getElem?_cons_succ] at hk
      simp only [endOf, List.take_succ_cons, List.map_cons, List.sum_cons] at h1 h2
      have hr : ∀ s ∈ r, 0 ≤ s.duration := fun s hs => hd s (List.mem_cons_of_mem _ hs)
      have pos : 0 ≤ ((r.take k).map Segment.duration).sum := by
        apply List.sum_nonneg
        intro x hx
        obtain ⟨y, hy, rfl⟩ := List.mem_map.mp hx
        exact hr y (List.mem_of_mem_take hy)
      rw [lookUp, if_neg (by linarith)]
      exact ih hr hk (by unfold endOf; linarith) (by unfold endOf; linarith)

theorem lookUp_none {l : List Segment} (hd : ∀ s ∈ l, 0 ≤ s.duration) {t c : ℝ} (h : c + endOf l l.length ≤ t) :
    lookUp t c l = none := by
  induction l generalizing c with
  | nil => rfl
  | cons a r ih =>
    simp only [endOf, List.take_length, List.map_cons, List.sum_cons] at h
    have hr : ∀ s ∈ r, 0 ≤ s.duration := fun s hs => hd s (List.mem_cons_of_mem _ hs)
    have pos : 0 ≤ (r.map Segment.duration).sum := by
      apply List.sum_nonneg
      intro x hx
      obtain ⟨y, hy, rfl⟩ := List.mem_map.mp hx
      exact hr y hy
    rw [lookUp, if_neg (by linarith)]
    exact ih hr (by unfold endOf; rw [List.take_length]; linarith)

/-! ### Sub-steps -/

/-- The sub-steps cover the requested duration exactly and none is longer than the limit. -/
theorem rk4_steps {step dt h : ℝ} {n : Nat} (e : rk4Steps step dt = some (n, h)) :
    n * h = dt ∧ |h| ≤ |step| ∧ (n = 0 ↔ dt = 0) ∧ (dt ≠ 0 → ((n : ℝ) - 1) * |step| < |dt| ∨ n = 1) := by
  unfold rk4Steps at e
  by_cases h0 : dt = 0
  · simp only [h0, if_true, Option.some.injEq, Prod.mk.injEq] at e
    obtain ⟨rfl, rfl⟩ := e
    simp [h0]
  rw [if_neg h0] at e
  by_cases h1 : |step| ≤ 0
  · simp [h1] at e
  rw [if_neg h1] at e
  push Not at h1
  have hdt : 0 < |dt| := abs_pos.mpr h0
  have hc : 0 < ⌈|dt| / |step|⌉ := Int.ceil_pos.mpr (div_pos hdt h1)
  have hmax : max (⌈|dt| / |step|⌉ : ℝ) 1 = (⌈|dt| / |step|⌉ : ℝ) := by
    apply max_eq_left
    exact_mod_cast hc
  simp only [hmax, Option.some.injEq, Prod.mk.injEq] at e
  obtain ⟨m, hm⟩ := Int.eq_ofNat_of_zero_le hc.le
  have fl : ⌊(⌈|dt| / |step|⌉ : ℝ)⌋₊ = m := by rw [hm]; simp
  rw [fl] at e
  obtain ⟨rfl, rfl⟩ := e
  have mpos : 0 < (m : ℝ) := by
    have : (0 : ℤ) < m := by rw [hm] at hc; simpa using hc
    exact_mod_cast this
  have le : |dt| / |step| ≤ m := by
    have := Int.le_ceil (|dt| / |step|)
    rw [hm] at this
    simpa using this
  have lt : (m : ℝ) - 1 < |dt| / |step| := by
    have := Int.ceil_lt_add_one (|dt| / |step|)
    rw [hm] at this
    simp only [Int.ofNat_eq_natCast, Int.cast_natCast] at this
    linarith
  refine ⟨by field_simp, ?_, ?_, fun _ => Or.inl ?_⟩
  · rw [abs_div, abs_of_pos mpos, div_le_iff₀ mpos]
    rw [div_le_iff₀ h1] at le
    linarith
  · constructor
    · intro e; rw [e] at mpos; simp at mpos
    · intro e; exact absurd e h0
  · rwa [lt_div_iff₀ h1] at lt

/-! ### Accumulated matrices -/

/-- A 6×6 matrix as a linear map. -/
noncomputable def asMap (m : Mat6) : (Fin 6 → ℝ) →L[ℝ] (Fin 6 → ℝ) := LinearMap.toContinuousLinearMap (Matrix.toLin' m)

theorem asMap_mul (a b : Mat6) : asMap (a * b) = (asMap a).comp (asMap b) := by
  ext x i
  simp [asMap, Matrix.toLin'_mul]

theorem asMap_one : asMap 1 = ContinuousLinearMap.id ℝ (Fin 6 → ℝ) := by
  ext x i
  simp [asMap]

theorem variationalLoop_ok {S ε : Type} {step : S → Except ε (S × Mat6)} {n : Nat} {s : S} {phi : Mat6}
    {l : List (S × Mat6)} (h : variationalLoop step n s phi = .ok l) : l.length = n := by
  induction n generalizing s phi l with
  | zero => simp only [variationalLoop, Except.ok.injEq] at h; simp [← h]
  | succ n ih =>
    rw [variationalLoop] at h
    rcases e : step s with x | ⟨s', f⟩
    · simp [e] at h
    rw [e] at h
    dsimp only at h
    rcases e2 : variationalLoop step n s' (f * phi) with x | l'
    · simp [e2] at h
    rw [e2] at h
    simp only [Except.ok.injEq] at h
    rw [← h, List.length_cons, ih e2]

/-- The derivative of the flow over the first steps, by the chain rule. -/
theorem variationalLoop_deriv {ε : Type} {step : (Fin 6 → ℝ) → Except ε ((Fin 6 → ℝ) × Mat6)}
    {flow : (Fin 6 → ℝ) → (Fin 6 → ℝ)}
    (hstep : ∀ s s' f, step s = .ok (s', f) → s' = flow s ∧ HasFDerivAt flow (asMap f) s)
    {s0 : Fin 6 → ℝ} {j n : Nat} {phi : Mat6} (hphi : HasFDerivAt flow^[j] (asMap phi) s0)
    {l : List ((Fin 6 → ℝ) × Mat6)} (h : variationalLoop step n (flow^[j] s0) phi = .ok l) :
    ∀ k s' p, l[k]? = some (s', p) → s' = flow^[j + k + 1] s0 ∧ HasFDerivAt flow^[j + k + 1] (asMap p) s0 := by
  induction n generalizing j phi l with
  | zero => simp only [variationalLoop, Except.ok.injEq] at h; simp [← h]
  | succ n ih =>
    rw [variationalLoop] at h
    rcases e : step (flow^[j] s0) with x | ⟨s1, f⟩
    · simp [e] at h
    rw [e] at h
    dsimp only at h
    obtain ⟨e1, hf⟩ := hstep _ _ _ e
    have d1 : HasFDerivAt flow^[j + 1] (asMap (f * phi)) s0 := by
      rw [Function.iterate_succ', asMap_mul]
      exact hf.comp s0 hphi
    have e1' : s1 = flow^[j + 1] s0 := by rw [e1, Function.iterate_succ', Function.comp_apply]
    rcases e2 : variationalLoop step n s1 (f * phi) with x | l'
    · simp [e2] at h
    rw [e2] at h
    simp only [Except.ok.injEq] at h
    intro k s' p hk
    rw [← h] at hk
    cases k with
    | zero =>
      simp only [List.getElem?_cons_zero, Option.some.injEq, Prod.mk.injEq] at hk
      obtain ⟨rfl, rfl⟩ := hk
      exact ⟨by simpa using e1', by simpa using d1⟩
    | succ k =>
      simp only [List.getElem?_cons_succ] at hk
      rw [e1'] at e2
      have := ih d1 e2 k s' p hk
      rwa [show j + 1 + k + 1 = j + (k + 1) + 1 by ring] at this

/-! ### Parameter derivatives -/

/-- The central difference tends to the derivative. -/
theorem centralDifference_tendsto {y : ℝ → Fin 6 → ℝ} {p : ℝ} {d : Fin 6 → ℝ}
    (h : ∀ i, HasDerivAt (fun p => y p i) (d i) p) (i : Fin 6) :
    Filter.Tendsto (fun ε => ((centralDifference y p ε).getD 0) i) (nhdsWithin 0 (Set.Ioi 0)) (nhds (d i)) := by
  have h1 : HasDerivAt (fun ε : ℝ => y (p + ε) i) (d i) 0 := by
    have := h i
    exact HasDerivAt.comp_const_add p 0 (by simpa using this)
  have h2 : HasDerivAt (fun ε : ℝ => y (p - ε) i) (-d i) 0 := by
    have := h i
    exact HasDerivAt.comp_const_sub p 0 (by simpa using this)
  have h3 : HasDerivAt (fun ε : ℝ => y (p + ε) i - y (p - ε) i) (2 * d i) 0 := by
    refine (h1.sub h2).congr_deriv ?_; ring
  have h4 := (hasDerivAt_iff_tendsto_slope.mp h3).mono_left
    (nhdsWithin_mono 0 (fun x (hx : 0 < x) => (ne_of_gt hx : x ≠ 0)))
  have h5 := h4.div_const 2
  have e : 2 * d i / 2 = d i := by ring
  rw [e] at h5
  refine h5.congr' ?_
  filter_upwards [self_mem_nhdsWithin] with ε hε
  have hε' : (0 : ℝ) < ε := hε
  simp only [centralDifference, not_le.mpr hε', if_false, Option.getD_some, slope_def_field]
  simp only [add_zero, sub_zero, sub_self]
  field_simp

/-- For a trajectory quadratic in the parameter the difference is the derivative itself. -/
theorem centralDifference_exact {y : ℝ → Fin 6 → ℝ} {a b c : Fin 6 → ℝ} (h : ∀ p i, y p i = a i + b i * p + c i * p ^ 2)
    {p ε : ℝ} (hε : 0 < ε) (i : Fin 6) : ((centralDifference y p ε).getD 0) i = b i + 2 * c i * p := by
  simp only [centralDifference, not_le.mpr hε, if_false, Option.getD_some, h]
  field_simp
  ring

theorem foldl_max (l : List ℝ) (z : ℝ) :
    z ≤ l.foldl max z ∧ (∀ x ∈ l, x ≤ l.foldl max z) ∧ (l.foldl max z = z ∨ l.foldl max z ∈ l) := by
  induction l generalizing z with
  | nil => simp
  | cons a t ih =>
    obtain ⟨h1, h2, h3⟩ := ih (max z a)
    simp only [List.foldl_cons]
    refine ⟨le_trans (le_max_left _ _) h1, fun x hx => ?_, ?_⟩
    · rcases List.mem_cons.mp hx with rfl | hx
      · exact le_trans (le_max_right _ _) h1
      · exact h2 x hx
    · rcases h3 with h3 | h3
      · rcases max_choice z a with h | h
        · left; rw [h3, h]
        · right; rw [h3, h]; exact List.mem_cons_self
      · right; exact List.mem_cons_of_mem _ h3

/-- The relative difference bounds every component, and vanishes only for equal columns. -/
theorem maxRelativeDifference_spec (a b : Fin 6 → ℝ) :
    (∀ i, |a i - b i| ≤ maxRelativeDifference a b * (if 0 < maxOf ((List.finRange 6).map fun i => |b i|)
      then maxOf ((List.finRange 6).map fun i => |b i|) else 1)) ∧
    (maxRelativeDifference a b = 0 ↔ a = b) := by
  set s := (if 0 < maxOf ((List.finRange 6).map fun i => |b i|)
      then maxOf ((List.finRange 6).map fun i => |b i|) else 1) with hs
  have spos : 0 < s := by rw [hs]; split_ifs <;> [assumption; norm_num]
  have e : maxRelativeDifference a b = ((List.finRange 6).map fun i => |a i - b i| / s).foldl max 0 := rfl
  obtain ⟨h1, h2, h3⟩ := foldl_max ((List.finRange 6).map fun i => |a i - b i| / s) 0
  rw [← e] at h1 h2 h3
  have hb : ∀ i, |a i - b i| ≤ maxRelativeDifference a b * s := by
    intro i
    have := h2 _ (List.mem_map.mpr ⟨i, List.mem_finRange i, rfl⟩)
    rwa [div_le_iff₀ spos] at this
  refine ⟨hb, fun h => ?_, fun h => ?_⟩
  · funext i
    have := hb i
    rw [h, zero_mul] at this
    exact sub_eq_zero.mp (abs_nonpos_iff.mp this)
  · rcases h3 with h3 | h3
    · exact h3
    · obtain ⟨i, _, hi⟩ := List.mem_map.mp h3
      rw [← hi, h]; simp

end Verif.Pod
