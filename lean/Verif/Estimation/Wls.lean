import Verif.Estimation.Model
import Verif.Estimation.Spec
import Mathlib.Tactic.Linarith
import Mathlib.Tactic.LinearCombination

/-
C87: weighted least squares.
-/
namespace Verif.Estimation
open Matrix Spec

/-! ### Adding rows -/

/-- A sparse row of finite numbers, and the coefficient of one parameter: repeated indices add up. -/
def finite (p : List (Nat × ℝ)) : List (Nat × Val) := p.map fun x => (x.1, some x.2)
noncomputable def coef (p : List (Nat × ℝ)) (l : Nat) : ℝ := (p.map fun x => if x.1 = l then x.2 else 0).sum

@[simp] theorem coef_nil (l : Nat) : coef [] l = 0 := rfl
@[simp] theorem coef_cons (i : Nat) (h : ℝ) (p : List (Nat × ℝ)) (l : Nat) :
    coef ((i, h) :: p) l = (if i = l then h else 0) + coef p l := rfl

theorem innerLoop_eq (i : Nat) (c : ℝ) (p : List (Nat × ℝ)) (s : Normal) (hi : i < s.n) (hp : ∀ x ∈ p, x.1 < s.n) :
    innerLoop i c (finite p) s =
      ({ s with matrix := fun k l => if k = i ∧ i ≤ l then (s.matrix k l).map (· + c * coef p l) else s.matrix k l },
        none) := by
  induction p generalizing s with
  | nil =>
    simp only [finite, List.map_nil, innerLoop, coef_nil, mul_zero, add_zero, Option.map_id', ite_self]
  | cons x p ih =>
    obtain ⟨j, h⟩ := x
    have hj : j < s.n := hp (j, h) (by simp)
    have hp' : ∀ x ∈ p, x.1 < s.n := fun x hx => hp x (by simp [hx])
    have hf : finite ((j, h) :: p) = (j, some h) :: finite p := rfl
    rw [hf, innerLoop]
    by_cases hji : j < i
    · rw [if_pos hji, ih s hi hp']
      congr 2
      funext k l
      by_cases hk : k = i ∧ i ≤ l
      · rw [if_pos hk, if_pos hk, coef_cons, if_neg (by omega), zero_add]
      · rw [if_neg hk, if_neg hk]
    · rw [if_neg hji, if_pos ⟨hi, hj⟩, ih (s.addAt i j _) hi hp']
      congr 2
      funext k l
      by_cases hk : k = i ∧ i ≤ l
      · rw [if_pos hk, if_pos hk, coef_cons]
        simp only [Normal.addAt]
        by_cases hl : l = j
        · rw [if_pos ⟨hk.1, hl⟩, if_pos hl.symm]
          cases s.matrix k l with
          | none => rfl
          | some x => simp; ring
        · rw [if_neg (by tauto), if_neg (fun h => hl h.symm), zero_add]
      · rw [if_neg hk, if_neg hk]
        simp only [Normal.addAt]
        rw [if_neg (by omega)]

theorem outerLoop_eq (w r : ℝ) (all q : List (Nat × ℝ)) (s : Normal) (ha : ∀ x ∈ all, x.1 < s.n)
    (hq : ∀ x ∈ q, x.1 < s.n) :
    outerLoop w r (finite all) (finite q) s =
      ({ s with
          matrix := fun k l => if k ≤ l then (s.matrix k l).map (· + w * coef q k * coef all l) else s.matrix k l
          b := fun k => s.b k + w * coef q k * r }, none) := by
  induction q generalizing s with
  | nil =>
    simp only [finite, List.map_nil, outerLoop, coef_nil, mul_zero, zero_mul, add_zero, Option.map_id', ite_self]
  | cons x q ih =>
    obtain ⟨i, h⟩ := x
    have hi : i < s.n := hq (i, h) (by simp)
    have hq' : ∀ x ∈ q, x.1 < s.n := fun x hx => hq x (by simp [hx])
    have hf : finite ((i, h) :: q) = (i, some h) :: finite q := rfl
    rw [hf, outerLoop, if_neg (by omega), innerLoop_eq i (w * h) all (s.addB i (w * h * r)) hi ha]
    dsimp only
    rw [ih]
    rotate_left
    · exact ha
    · exact hq'
    congr 2
    · funext k l
      simp only [Normal.addB, coef_cons]
      by_cases hk : k ≤ l
      · rw [if_pos hk, if_pos hk]
        by_cases hki : k = i
        · rw [if_pos ⟨hki, by omega⟩, if_pos hki.symm]
          cases s.matrix k l with
          | none => rfl
          | some x => simp; ring
        · rw [if_neg (by tauto), if_neg (fun h => hki h.symm), zero_add]
      · rw [if_neg hk, if_neg hk, if_neg (by omega)]
    · funext k
      simp only [Normal.addB, coef_cons]
      by_cases hki : k = i
      · rw [if_pos hki, if_pos hki.symm]; ring
      · rw [if_neg hki, if_neg (fun h => hki h.symm), zero_add]

/-- The measurement a sparse row stands for. -/
noncomputable def rowOf (n : Nat) (p : List (Nat × ℝ)) (r σ : ℝ) : Row n := ⟨fun i => coef p i, r, σ⟩

/-- **C87 (accepted rows).** A finite row with indices in range and a positive standard deviation is accepted. -/
theorem add_row_accepts (s : Normal) (p : List (Nat × ℝ)) (r σ : ℝ) (hσ : 0 < σ) (hp : ∀ x ∈ p, x.1 < s.n) :
    ∃ s', s.addRow (finite p) (some r) (some σ) = (s', none) := by
  unfold Normal.addRow
  dsimp only
  rw [if_neg (by linarith), outerLoop_eq _ _ _ _ _ hp hp]
  exact ⟨_, rfl⟩

/-- Outcome of the inner loop: it stops with a panic at the first index out of range, or runs through. -/
theorem innerLoop_none {i : Nat} {c : ℝ} {p : List (Nat × Val)} {s s' : Normal}
    (h : innerLoop i c p s = (s', none)) : (∀ x ∈ p, i ≤ x.1 → x.1 < s.n) ∧ s'.n = s.n := by
  induction p generalizing s with
  | nil => cases h; simp
  | cons x p ih =>
    obtain ⟨j, hj⟩ := x
    rw [innerLoop] at h
    by_cases hji : j < i
    · rw [if_pos hji] at h
      obtain ⟨h1, h2⟩ := ih h
      refine ⟨fun x hx hix => ?_, h2⟩
      rcases List.mem_cons.mp hx with rfl | hx
      · omega
      · exact h1 x hx hix
    · rw [if_neg hji] at h
      by_cases hb : i < s.n ∧ j < s.n
      · rw [if_pos hb] at h
        obtain ⟨h1, h2⟩ := ih h
        refine ⟨fun x hx hix => ?_, h2⟩
        rcases List.mem_cons.mp hx with rfl | hx
        · exact hb.2
        · exact h1 x hx hix
      · rw [if_neg hb] at h; cases h

theorem outerLoop_none {w r : ℝ} {all q : List (Nat × Val)} {s s' : Normal}
    (h : outerLoop w r all q s = (s', none)) : (∀ x ∈ q, x.1 < s.n ∧ ∃ v, x.2 = some v) ∧ s'.n = s.n := by
  induction q generalizing s with
  | nil => cases h; simp
  | cons x q ih =>
    obtain ⟨i, hi⟩ := x
    by_cases hn : s.n ≤ i
    · cases hi <;> rw [outerLoop, if_pos hn] at h <;> cases h
    · cases hi with
      | none => rw [outerLoop, if_neg hn] at h; cases h
      | some v =>
        rw [outerLoop, if_neg hn] at h
        cases e : innerLoop i (w * v) all (s.addB i (w * v * r)) with
        | mk s1 o =>
          rw [e] at h
          cases o with
          | some f => cases h
          | none =>
            obtain ⟨h1, h2⟩ := ih h
            have h3 : s1.n = s.n := (innerLoop_none e).2
            rw [h3] at h1 h2
            refine ⟨fun x hx => ?_, h2⟩
            rcases List.mem_cons.mp hx with rfl | hx
            · exact ⟨by omega, v, rfl⟩
            · exact h1 x hx

/-- **C87 (only those).** A row that is accepted is finite, in range and has a positive standard deviation. -/
theorem add_row_only {s s' : Normal} {partials : List (Nat × Val)} {residual sigma : Val}
    (h : s.addRow partials residual sigma = (s', none)) :
    ∃ p r σ, partials = finite p ∧ residual = some r ∧ sigma = some σ ∧ 0 < σ ∧ ∀ x ∈ p, x.1 < s.n := by
  unfold Normal.addRow at h
  cases sigma with
  | none => cases h
  | some σ =>
    dsimp only at h
    by_cases hσ : σ ≤ 0
    · rw [if_pos hσ] at h; cases h
    rw [if_neg hσ] at h
    cases residual with
    | none => cases h
    | some r =>
      dsimp only at h
      cases e : outerLoop (1 / (σ * σ)) r partials partials s with
      | mk s1 o =>
        rw [e] at h
        cases o with
        | some f => cases h
        | none =>
          obtain ⟨h1, -⟩ := outerLoop_none e
          refine ⟨partials.map fun x => (x.1, x.2.getD 0), r, σ, ?_, rfl, rfl, by linarith, ?_⟩
          · unfold finite
            rw [List.map_map]
            conv_lhs => rw [← List.map_id partials]
            apply List.map_congr_left
            intro x hx
            obtain ⟨v, hv⟩ := (h1 x hx).2
            obtain ⟨a, y⟩ := x
            dsimp only at hv
            subst hv
            rfl
          · intro x hx
            obtain ⟨y, hy, rfl⟩ := List.mem_map.mp hx
            exact (h1 y hy).1

/-! ### The accumulator represents the rows -/

/-- An accumulator obtained from `new` by accepted rows (most recent first). -/
inductive Built (n : Nat) : List (Row n) → Normal → Prop where
  | new : Built n [] (Normal.new n)
  | add {rows : List (Row n)} {s s' : Normal} {p : List (Nat × ℝ)} {r σ : ℝ} :
      Built n rows s → s.addRow (finite p) (some r) (some σ) = (s', none) → Built n (rowOf n p r σ :: rows) s'

theorem information_cons {n : Nat} (w : Row n) (rows : List (Row n)) :
    information (w :: rows) = (1 / w.σ ^ 2) • vecMulVec w.h w.h + information rows := by
  simp [information]

theorem cost_cons {n : Nat} (w : Row n) (rows : List (Row n)) (x : Fin n → ℝ) :
    cost (w :: rows) x = ((w.r - w.h ⬝ᵥ x) / w.σ) ^ 2 + cost rows x := by
  simp [cost]

/-- The right-hand side of the normal equations. -/
noncomputable def rhs {n : Nat} (rows : List (Row n)) : Fin n → ℝ :=
  (rows.map fun w => (w.r / w.σ ^ 2) • w.h).sum

theorem rhs_cons {n : Nat} (w : Row n) (rows : List (Row n)) :
    rhs (w :: rows) = (w.r / w.σ ^ 2) • w.h + rhs rows := by
  simp [rhs]

structure Represents (n : Nat) (rows : List (Row n)) (s : Normal) : Prop where
  size : s.n = n
  upper : ∀ i j : Fin n, i ≤ j → s.matrix i j = some (information rows i j)
  right : ∀ i : Fin n, s.b i = rhs rows i
  chi2 : s.chi2 = cost rows 0
  obs : s.obs = rows.length
  sigma : ∀ w ∈ rows, 0 < w.σ

theorem built_represents {n : Nat} {rows : List (Row n)} {s : Normal} (h : Built n rows s) :
    Represents n rows s := by
  induction h with
  | new =>
    exact ⟨rfl, fun i j _ => by simp [Normal.new, information], fun i => by simp [Normal.new, rhs],
      by simp [Normal.new, cost], rfl, by simp⟩
  | @add rows s s' p r σ hb ha ih =>
    obtain ⟨p', r', σ', e1, e2, e3, hσ, hp⟩ := add_row_only ha
    cases e2; cases e3
    have hpp : p' = p := by
      have := congrArg (List.map fun x : Nat × Val => (x.1, x.2.getD 0)) e1
      simp only [finite, List.map_map] at this
      simpa [Function.comp_def] using this.symm
    subst hpp
    unfold Normal.addRow at ha
    dsimp only at ha
    rw [if_neg (by linarith), outerLoop_eq _ _ _ _ _ hp hp] at ha
    cases ha
    refine ⟨ih.size, fun i j hij => ?_, fun i => ?_, ?_, ?_, ?_⟩
    · dsimp only
      rw [if_pos (show (i : Nat) ≤ j from hij), ih.upper i j hij, information_cons]
      simp [rowOf, vecMulVec_apply]
      ring
    · dsimp only
      rw [ih.right, rhs_cons]
      simp [rowOf]
      ring
    · dsimp only
      rw [ih.chi2, cost_cons]
      simp [rowOf]
      ring
    · dsimp only
      rw [ih.obs]
      rfl
    · intro w hw
      rcases List.mem_cons.mp hw with rfl | hw
      · exact hσ
      · exact ih.sigma w hw

/-! ### The minimum -/

theorem information_symm {n : Nat} (rows : List (Row n)) : (information rows).IsSymm := by
  induction rows with
  | nil => simp [information, Matrix.IsSymm]
  | cons w rows ih =>
    rw [information_cons]
    refine Matrix.IsSymm.add ?_ ih
    ext i j
    simp [vecMulVec_apply, mul_comm]

theorem information_form {n : Nat} (rows : List (Row n)) (x y : Fin n → ℝ) :
    x ⬝ᵥ information rows *ᵥ y = (rows.map fun w => (w.h ⬝ᵥ x) * (w.h ⬝ᵥ y) / w.σ ^ 2).sum := by
  induction rows with
  | nil => simp [information]
  | cons w rows ih =>
    rw [information_cons, add_mulVec, dotProduct_add, ih, List.map_cons, List.sum_cons]
    congr 1
    rw [smul_mulVec, vecMulVec_mulVec]
    simp
    rw [dotProduct_comm x w.h]
    ring

theorem information_nonneg {n : Nat} (rows : List (Row n)) (x : Fin n → ℝ) : 0 ≤ x ⬝ᵥ information rows *ᵥ x := by
  rw [information_form]
  apply List.sum_nonneg
  intro y hy
  obtain ⟨w, -, rfl⟩ := List.mem_map.mp hy
  exact div_nonneg (mul_self_nonneg _) (sq_nonneg _)

/-- The cost is a parabola around the solution of the normal equations. -/
theorem cost_expand {n : Nat} (rows : List (Row n)) (x : Fin n → ℝ) :
    cost rows x = cost rows 0 - 2 * (rhs rows ⬝ᵥ x) + x ⬝ᵥ information rows *ᵥ x := by
  rw [information_form]
  induction rows with
  | nil => simp [cost, rhs]
  | cons w rows ih =>
    rw [cost_cons, cost_cons, rhs_cons, ih, add_dotProduct, List.map_cons, List.sum_cons]
    simp
    ring

theorem quad_expand {n : Nat} {A : Matrix (Fin n) (Fin n) ℝ} (hA : A.IsSymm) (u x : Fin n → ℝ) :
    (x - u) ⬝ᵥ A *ᵥ (x - u) = x ⬝ᵥ A *ᵥ x - 2 * (A *ᵥ u ⬝ᵥ x) + u ⬝ᵥ A *ᵥ u := by
  have e : u ⬝ᵥ A *ᵥ x = A *ᵥ u ⬝ᵥ x := by
    rw [dotProduct_mulVec, ← mulVec_transpose, hA]
  rw [mulVec_sub, sub_dotProduct, dotProduct_sub, dotProduct_sub, e, dotProduct_comm x (A *ᵥ u)]
  ring

theorem cost_around {n : Nat} {rows : List (Row n)} {u : Fin n → ℝ} (hu : information rows *ᵥ u = rhs rows)
    (x : Fin n → ℝ) : cost rows x = cost rows u + (x - u) ⬝ᵥ information rows *ᵥ (x - u) := by
  rw [quad_expand (information_symm rows), cost_expand rows x, cost_expand rows u, hu, dotProduct_comm u (rhs rows)]
  ring

/-- Contract of `faer`'s factorisation for finite symmetric matrices. -/
structure Cholesky.Correct (c : Cholesky) : Prop where
  complete : ∀ n (A : Matrix (Fin n) (Fin n) ℝ), Spec.PosDef A → (c.factor n fun i j => some (A i j)) ≠ none
  sound : ∀ n (A : Matrix (Fin n) (Fin n) ℝ) f, A.IsSymm → (c.factor n fun i j => some (A i j)) = some f →
    Spec.PosDef A ∧ ∀ b, A *ᵥ f b = b

theorem symmetrised_eq {n : Nat} {rows : List (Row n)} {s : Normal} (h : Represents n rows s) :
    HEq s.symmetrised (fun i j : Fin n => some (information rows i j)) := by
  obtain ⟨rfl, h2, -⟩ := h
  apply heq_of_eq
  funext i j
  unfold Normal.symmetrised
  split
  · rename_i h; exact h2 i j h
  · rename_i h
    rw [h2 j i (le_of_lt (not_le.mp h))]
    exact congrArg some (congrFun (congrFun (information_symm rows) i) j)

/-- **C87 (least squares).** Whatever rows were accepted: the update is the one parameter change with the smallest
weighted sum of squared residuals, the covariance is the inverse of the information matrix, `chi2` is the weighted
sum before the update, and the counts are right. -/
theorem solve_minimises {c : Cholesky} (hc : c.Correct) {n : Nat} {rows : List (Row n)} {s : Normal}
    (hs : Built n rows s) {res : WlsResult} (h : s.solve c = .ok res) :
    ∃ hn : res.n = n, ∃ u : Fin n → ℝ, ∃ C : Matrix (Fin n) (Fin n) ℝ,
      (∀ i, u i = res.update (i.cast hn.symm)) ∧ (∀ i j, C i j = res.covariance (i.cast hn.symm) (j.cast hn.symm)) ∧
      (∀ x, x ≠ u → cost rows u < cost rows x) ∧
      information rows * C = 1 ∧ C * information rows = 1 ∧ Spec.PosDef C ∧
      res.chi2 = cost rows 0 ∧ res.obs = rows.length := by
  have hr := built_represents hs
  obtain ⟨rfl⟩ := hr.size
  have hsym := eq_of_heq (symmetrised_eq hr)
  unfold Normal.solve at h
  rw [hsym] at h
  cases hf : c.factor s.n (fun i j => some (information rows i j)) with
  | none => rw [hf] at h; cases h
  | some f =>
    rw [hf] at h
    cases h
    obtain ⟨hpd, hsol⟩ := hc.sound _ _ _ (information_symm rows) hf
    have hb : (fun i : Fin s.n => s.b i) = rhs rows := funext hr.right
    refine ⟨rfl, f (rhs rows), fun i j => f (fun k => if k = j then 1 else 0) i, fun i => by rw [← hb]; rfl,
      fun i j => rfl, fun x hx => ?_, ?_⟩
    · rw [cost_around (hsol _) x]
      have := hpd.2 (x - f (rhs rows)) (sub_ne_zero.mpr hx)
      linarith
    · set C : Matrix (Fin s.n) (Fin s.n) ℝ := fun i j => f (fun k => if k = j then 1 else 0) i with hC
      have h1 : information rows * C = 1 := by
        ext i j
        have := congrFun (hsol (fun k => if k = j then 1 else 0)) i
        rw [Matrix.mul_apply, Matrix.one_apply]
        exact this
      have h2 : C * information rows = 1 := mul_eq_one_comm.mp h1
      have hCs : C.IsSymm := by
        have e : Cᵀ * information rows = 1 := by
          have := congrArg Matrix.transpose h1
          rwa [Matrix.transpose_mul, information_symm rows, Matrix.transpose_one] at this
        calc Cᵀ = Cᵀ * (information rows * C) := by rw [h1, Matrix.mul_one]
          _ = C := by rw [← Matrix.mul_assoc, e, Matrix.one_mul]
      refine ⟨h1, h2, ⟨hCs, fun x hx => ?_⟩, hr.chi2, hr.obs⟩
      have hne : C *ᵥ x ≠ 0 := by
        intro h0
        apply hx
        have := congrArg (information rows *ᵥ ·) h0
        simpa [mulVec_mulVec, h1] using this
      have := hpd.2 _ hne
      rw [mulVec_mulVec, h1, one_mulVec, dotProduct_comm] at this
      exact this

/-- **C87 (observability).** Solving fails exactly when some parameter direction is seen by no measurement. -/
theorem solve_fails_iff {c : Cholesky} (hc : c.Correct) {n : Nat} {rows : List (Row n)} {s : Normal}
    (hs : Built n rows s) : (∃ e, s.solve c = .error e) ↔ ∃ x, Unseen rows x := by
  have hr := built_represents hs
  obtain ⟨rfl⟩ := hr.size
  have hsym := eq_of_heq (symmetrised_eq hr)
  have key : Spec.PosDef (information rows) ↔ ¬ ∃ x, Unseen rows x := by
    constructor
    · rintro hpd ⟨x, hx, h0⟩
      have := hpd.2 x hx
      rw [information_form] at this
      have hz : (rows.map fun w => (w.h ⬝ᵥ x) * (w.h ⬝ᵥ x) / w.σ ^ 2).sum = 0 := by
        apply List.sum_eq_zero
        intro y hy
        obtain ⟨w, hw, rfl⟩ := List.mem_map.mp hy
        rw [h0 w hw]; simp
      linarith
    · intro hno
      refine ⟨information_symm rows, fun x hx => lt_of_le_of_ne (information_nonneg rows x) fun h0 => ?_⟩
      apply hno
      refine ⟨x, hx, fun w hw => ?_⟩
      rw [information_form] at h0
      have hall : ∀ y ∈ rows.map (fun w => (w.h ⬝ᵥ x) * (w.h ⬝ᵥ x) / w.σ ^ 2), (0 : ℝ) ≤ y := by
        intro y hy
        obtain ⟨w, -, rfl⟩ := List.mem_map.mp hy
        exact div_nonneg (mul_self_nonneg _) (sq_nonneg _)
      have := List.all_zero_of_le_zero_le_of_sum_eq_zero hall h0.symm (List.mem_map_of_mem hw)
      have hσ := hr.sigma w hw
      rcases div_eq_zero_iff.mp this with h | h
      · exact mul_self_eq_zero.mp h
      · exact absurd h (by positivity)
  unfold Normal.solve
  rw [hsym]
  constructor
  · rintro ⟨e, he⟩
    by_contra hno
    have := hc.complete _ _ (key.mpr hno)
    cases hf : c.factor s.n (fun i j => some (information rows i j)) with
    | none => exact this hf
    | some f => rw [hf] at he; cases he
  · intro hx
    cases hf : c.factor s.n (fun i j => some (information rows i j)) with
    | none => exact ⟨_, rfl⟩
    | some f =>
      exact absurd hx (key.mp (hc.sound _ _ _ (information_symm rows) hf).1)

/-! ### Findings -/

/-- **C87 (finding).** `add_row` documents an error for an index out of range. It panics instead whenever the first
index of the row is in range (and its value finite): the inner loop indexes the matrix before the check. -/
theorem add_row_panics (s : Normal) (i j : Nat) (h r σ : ℝ) (v : Val) (rest rest' : List (Nat × Val)) (hσ : 0 < σ)
    (hi : i < s.n) (hj : s.n ≤ j) :
    ∃ s', s.addRow ((i, some h) :: rest ++ (j, v) :: rest') (some r) (some σ) = (s', some .panic) := by
  have inner : ∀ (c : ℝ) (p : List (Nat × Val)) (s : Normal), i < s.n → s.n ≤ j →
      ∃ s', innerLoop i c (p ++ (j, v) :: rest') s = (s', some .panic) := by
    intro c p
    induction p with
    | nil =>
      intro s h1 h2
      refine ⟨s, ?_⟩
      rw [List.nil_append, innerLoop, if_neg (by omega), if_neg (by omega)]
    | cons x p ih =>
      intro s h1 h2
      obtain ⟨l, u⟩ := x
      rw [List.cons_append, innerLoop]
      by_cases hl : l < i
      · rw [if_pos hl]; exact ih s h1 h2
      · rw [if_neg hl]
        by_cases hb : i < s.n ∧ l < s.n
        · rw [if_pos hb]; exact ih _ h1 h2
        · rw [if_neg hb]; exact ⟨s, rfl⟩
  obtain ⟨s', hs'⟩ := inner (1 / (σ * σ) * h) ((i, some h) :: rest) (s.addB i (1 / (σ * σ) * h * r)) hi hj
  refine ⟨s', ?_⟩
  unfold Normal.addRow
  dsimp only
  rw [if_neg (by linarith)]
  rw [List.cons_append] at hs' ⊢
  rw [outerLoop, if_neg (by omega), hs']

/-- **C87 (finding).** A rejected row spoils the accumulator: after `[(0, 1.0), (1, NaN)]` was refused, the matrix
contains a number that is not finite and the right-hand side has changed, although χ² and the count have not. -/
theorem rejected_row_spoils (r : ℝ) (hr : r ≠ 0) :
    ∃ s', (Normal.new 2).addRow [(0, some 1), (1, none)] (some r) (some 1) = (s', some (.partialValue 1)) ∧
      s'.matrix 0 1 = none ∧ s'.b 0 ≠ 0 ∧ s'.chi2 = 0 ∧ s'.obs = 0 := by
  unfold Normal.addRow
  norm_num [outerLoop, innerLoop, Normal.new, Normal.addAt, Normal.addB]
  exact hr

/-- Two measurements of a line: the accumulator can be built and its rows determine both parameters. -/
example : ∃ s, Built 2 [rowOf 2 [(0, 1), (1, 2)] 3 1, rowOf 2 [(0, 1), (1, 0)] 1 1] s ∧
    ¬ ∃ x, Unseen [rowOf 2 [(0, 1), (1, 2)] 3 1, rowOf 2 [(0, 1), (1, 0)] 1 1] x := by
  obtain ⟨s1, h1⟩ := add_row_accepts (Normal.new 2) [(0, 1), (1, 0)] 1 1 one_pos (by simp [Normal.new])
  have b1 := Built.add Built.new h1
  have n1 : s1.n = 2 := (built_represents b1).size
  obtain ⟨s2, h2⟩ := add_row_accepts s1 [(0, 1), (1, 2)] 3 1 one_pos (by simp [n1])
  refine ⟨s2, Built.add b1 h2, ?_⟩
  rintro ⟨x, hx, h⟩
  have e1 := h _ (by simp : rowOf 2 [(0, 1), (1, 2)] 3 1 ∈ _)
  have e2 := h (rowOf 2 [(0, 1), (1, 0)] 1 1) (by simp)
  simp [rowOf, dotProduct, Fin.sum_univ_two, coef] at e1 e2
  apply hx
  ext i
  fin_cases i
  · exact e2
  · have : x 1 = 0 := by rw [e2] at e1; linarith
    exact this

end Verif.Estimation
