import Verif.Estimation.Wls

/-
C88: the sequential filter.
-/
namespace Verif.Estimation
open Matrix Spec

/-- Covariance of the error after moving by `k` times the innovation of a measurement with partials `h` and noise
variance `r`. -/
def errorCov (P : Mat6) (h : Vec6) (r : ℝ) (k : Vec6) : Mat6 :=
  (1 - vecMulVec k h) * P * (1 - vecMulVec k h)ᵀ + r • vecMulVec k k

theorem errorCov_symm {P : Mat6} (hP : P.IsSymm) (h k : Vec6) (r : ℝ) : (errorCov P h r k).IsSymm := by
  unfold errorCov Matrix.IsSymm
  rw [transpose_add, transpose_mul, transpose_mul, transpose_transpose, hP, Matrix.mul_assoc, transpose_smul,
    transpose_vecMulVec]

theorem symmetrise_eq {P : Mat6} (hP : P.IsSymm) : symmetrise P = P := by
  ext i j
  unfold symmetrise
  have : P j i = P i j := congrFun (congrFun hP i) j
  split
  · rfl
  · split
    · rw [this]; ring
    · rw [this]; ring

/-- Quadratic form of the error covariance for an arbitrary gain. -/
theorem errorCov_form {P : Mat6} (hP : P.IsSymm) (h k u : Vec6) (r : ℝ) :
    u ⬝ᵥ errorCov P h r k *ᵥ u
      = u ⬝ᵥ P *ᵥ u - 2 * (u ⬝ᵥ k) * (u ⬝ᵥ P *ᵥ h) + (r + h ⬝ᵥ P *ᵥ h) * (u ⬝ᵥ k) ^ 2 := by
  have e1 : (1 - vecMulVec k h)ᵀ *ᵥ u = u - (u ⬝ᵥ k) • h := by
    rw [transpose_sub, transpose_one, transpose_vecMulVec, sub_mulVec, one_mulVec, vecMulVec_mulVec]
    rw [dotProduct_comm k u]
    ext i
    simp [mul_comm]
  have e2 : u ⬝ᵥ ((1 - vecMulVec k h) * P * (1 - vecMulVec k h)ᵀ) *ᵥ u
      = (u - (u ⬝ᵥ k) • h) ⬝ᵥ P *ᵥ (u - (u ⬝ᵥ k) • h) := by
    rw [← e1, ← mulVec_mulVec, ← mulVec_mulVec, dotProduct_mulVec u (1 - vecMulVec k h), ← mulVec_transpose]
  have e3 : h ⬝ᵥ P *ᵥ u = u ⬝ᵥ P *ᵥ h := by
    rw [dotProduct_mulVec, ← mulVec_transpose, hP, dotProduct_comm]
  unfold errorCov
  rw [add_mulVec, dotProduct_add, e2, smul_mulVec, vecMulVec_mulVec]
  simp only [sub_dotProduct, mulVec_sub, dotProduct_sub, smul_dotProduct, mulVec_smul, dotProduct_smul, smul_eq_mul,
    e3]
  have e4 : MulOpposite.op (k ⬝ᵥ u) • (u ⬝ᵥ k) = (u ⬝ᵥ k) * (u ⬝ᵥ k) := by
    rw [dotProduct_comm k u]
    rfl
  rw [e4]
  ring

/-- What an update does to a symmetric covariance. -/
theorem update_ok {f g : Ekf} {h : Vec6} {innov r : ℝ} {rec : Innovation} (hP : f.cov.IsSymm)
    (hu : f.updateScalar h innov r = .ok (g, rec)) :
    0 ≤ r ∧ 0 < r + h ⬝ᵥ f.cov *ᵥ h ∧
      g.state = f.state + innov • (1 / (r + h ⬝ᵥ f.cov *ᵥ h)) • f.cov *ᵥ h ∧
      g.cov = errorCov f.cov h r ((1 / (r + h ⬝ᵥ f.cov *ᵥ h)) • f.cov *ᵥ h) ∧
      rec = ⟨innov, r + h ⬝ᵥ f.cov *ᵥ h, innov ^ 2 / (r + h ⬝ᵥ f.cov *ᵥ h)⟩ := by
  unfold Ekf.updateScalar at hu
  dsimp only at hu
  by_cases hr : r < 0
  · rw [if_pos hr] at hu; cases hu
  rw [if_neg hr] at hu
  by_cases hs : r + h ⬝ᵥ f.cov *ᵥ h ≤ 0
  · rw [if_pos hs] at hu; cases hu
  rw [if_neg hs] at hu
  have hk : (fun i => (f.cov *ᵥ h) i / (r + h ⬝ᵥ f.cov *ᵥ h)) = (1 / (r + h ⬝ᵥ f.cov *ᵥ h)) • f.cov *ᵥ h := by
    ext i
    simp
    ring
  rw [hk] at hu
  cases hu
  refine ⟨by linarith, by linarith, rfl, ?_, ?_⟩
  · exact symmetrise_eq (errorCov_symm hP h _ r)
  · rw [pow_two]

/-- **C88 (optimal gain).** Among all gains the update takes the one whose error covariance is smallest in every
direction; the reported variance and normalised innovation are those of the innovation. -/
theorem update_optimal {f g : Ekf} {h : Vec6} {innov r : ℝ} {rec : Innovation} (hP : Spec.PosSemi f.cov)
    (hu : f.updateScalar h innov r = .ok (g, rec)) :
    ∃ k, g.state = f.state + innov • k ∧ g.cov = errorCov f.cov h r k ∧
      (∀ k' u, u ⬝ᵥ g.cov *ᵥ u ≤ u ⬝ᵥ errorCov f.cov h r k' *ᵥ u) ∧
      rec.innovation = innov ∧ rec.variance = h ⬝ᵥ f.cov *ᵥ h + r ∧ rec.nis = innov ^ 2 / rec.variance := by
  obtain ⟨-, hs, h1, h2, h3⟩ := update_ok hP.1 hu
  refine ⟨_, h1, h2, fun k' u => ?_, by rw [h3], by rw [h3]; exact add_comm _ _, by rw [h3]⟩
  rw [h2, errorCov_form hP.1, errorCov_form hP.1]
  set s := r + h ⬝ᵥ f.cov *ᵥ h
  rw [dotProduct_smul, smul_eq_mul]
  set y := u ⬝ᵥ f.cov *ᵥ h
  have : s * (u ⬝ᵥ k' - 1 / s * y) ^ 2 =
      (-2 * (u ⬝ᵥ k') * y + s * (u ⬝ᵥ k') ^ 2) - (-2 * (1 / s * y) * y + s * (1 / s * y) ^ 2) := by
    field_simp
    ring
  have h0 : 0 ≤ s * (u ⬝ᵥ k' - 1 / s * y) ^ 2 := mul_nonneg hs.le (sq_nonneg _)
  linarith

theorem errorCov_semi {P : Mat6} (hP : Spec.PosSemi P) (h k : Vec6) {r : ℝ} (hr : 0 ≤ r) :
    Spec.PosSemi (errorCov P h r k) := by
  refine ⟨errorCov_symm hP.1 h k r, fun u => ?_⟩
  rw [errorCov_form hP.1]
  have e3 : h ⬝ᵥ P *ᵥ u = u ⬝ᵥ P *ᵥ h := by
    rw [dotProduct_mulVec, ← mulVec_transpose, hP.1, dotProduct_comm]
  have := hP.2 (u - (u ⬝ᵥ k) • h)
  simp only [sub_dotProduct, mulVec_sub, dotProduct_sub, smul_dotProduct, mulVec_smul, dotProduct_smul, smul_eq_mul,
    e3] at this
  have h2 : 0 ≤ r * (u ⬝ᵥ k) ^ 2 := mul_nonneg hr (sq_nonneg _)
  linarith

/-- A step of a filter run: time update or measurement; a failed measurement leaves the filter as it was. -/
inductive Op where
  | predict (next : Vec6) (phi : Mat6) (q : Option Mat6)
  | measure (h : Vec6) (innov r : ℝ)

noncomputable def Op.apply (f : Ekf) : Op → Ekf
  | .predict next phi q => f.predict next phi q
  | .measure h innov r => match f.updateScalar h innov r with
    | .ok (g, _) => g
    | .error _ => f

/-- **C88 (covariance stays valid).** Through any run of time updates with valid process noise and of measurements,
the covariance stays symmetric and positive semidefinite. -/
theorem covariance_valid (f : Ekf) (hf : Spec.PosSemi f.cov) (ops : List Op)
    (hq : ∀ next phi q, Op.predict next phi (some q) ∈ ops → Spec.PosSemi q) :
    Spec.PosSemi (ops.foldl Op.apply f).cov := by
  induction ops generalizing f with
  | nil => exact hf
  | cons op ops ih =>
    rw [List.foldl_cons]
    refine ih _ ?_ fun next phi q hm => hq next phi q (by simp [hm])
    cases op with
    | measure h innov r =>
      unfold Op.apply
      dsimp only
      cases hu : f.updateScalar h innov r with
      | error e => exact hf
      | ok p =>
        obtain ⟨g, rec⟩ := p
        obtain ⟨hr, -, -, h2, -⟩ := update_ok hf.1 hu
        dsimp only
        rw [h2]
        exact errorCov_semi hf h _ hr
    | predict next phi q =>
      have hbase : Spec.PosSemi (phi * f.cov * phiᵀ) := by
        refine ⟨?_, fun u => ?_⟩
        · unfold Matrix.IsSymm
          rw [transpose_mul, transpose_mul, transpose_transpose, hf.1, Matrix.mul_assoc]
        · have := hf.2 (phiᵀ *ᵥ u)
          rw [← mulVec_mulVec, ← mulVec_mulVec, dotProduct_mulVec u phi, ← mulVec_transpose]
          exact this
      cases q with
      | none => exact hbase
      | some q =>
        have hqq := hq next phi q (by simp)
        refine ⟨Matrix.IsSymm.add hbase.1 hqq.1, fun u => ?_⟩
        have h1 := hbase.2 u
        have h2 := hqq.2 u
        show 0 ≤ u ⬝ᵥ (phi * f.cov * phiᵀ + q) *ᵥ u
        rw [add_mulVec, dotProduct_add]
        linarith

/-- **C88 (time update).** The covariance becomes that of the propagated error plus the noise. -/
theorem predict_cov (f : Ekf) (next : Vec6) (phi : Mat6) (q : Mat6) (u : Vec6) :
    (f.predict next phi none).state = next ∧
    u ⬝ᵥ (f.predict next phi none).cov *ᵥ u = (phiᵀ *ᵥ u) ⬝ᵥ f.cov *ᵥ (phiᵀ *ᵥ u) ∧
    u ⬝ᵥ (f.predict next phi (some q)).cov *ᵥ u = (phiᵀ *ᵥ u) ⬝ᵥ f.cov *ᵥ (phiᵀ *ᵥ u) + u ⬝ᵥ q *ᵥ u := by
  have e : u ⬝ᵥ (phi * f.cov * phiᵀ) *ᵥ u = (phiᵀ *ᵥ u) ⬝ᵥ f.cov *ᵥ (phiᵀ *ᵥ u) := by
    rw [← mulVec_mulVec, ← mulVec_mulVec, dotProduct_mulVec u phi, ← mulVec_transpose]
  refine ⟨rfl, e, ?_⟩
  show u ⬝ᵥ (phi * f.cov * phiᵀ + q) *ᵥ u = _
  rw [add_mulVec, dotProduct_add, e]

/-- **C88 (failures).** With a valid covariance a measurement is refused only for a negative noise variance, or when
both the noise and the predicted variance of the measured quantity vanish. -/
theorem update_fails_iff {f : Ekf} (hf : Spec.PosSemi f.cov) (h : Vec6) (innov r : ℝ) :
    (∃ e, f.updateScalar h innov r = .error e) ↔ r < 0 ∨ (r = 0 ∧ h ⬝ᵥ f.cov *ᵥ h = 0) := by
  have h0 := hf.2 h
  unfold Ekf.updateScalar
  dsimp only
  by_cases hr : r < 0
  · rw [if_pos hr]; exact ⟨fun _ => Or.inl hr, fun _ => ⟨_, rfl⟩⟩
  rw [if_neg hr]
  by_cases hs : r + h ⬝ᵥ f.cov *ᵥ h ≤ 0
  · rw [if_pos hs]
    exact ⟨fun _ => Or.inr ⟨by linarith, by linarith⟩, fun _ => ⟨_, rfl⟩⟩
  · rw [if_neg hs]
    constructor
    · rintro ⟨e, he⟩; cases he
    · rintro (h | ⟨h1, h2⟩)
      · exact absurd h hr
      · exact absurd (by rw [h1, h2, add_zero] : r + h ⬝ᵥ f.cov *ᵥ h ≤ 0) hs

/-! ### The filter is least squares -/

/-- Measurements of the state itself, one after the other: the innovation is the measured value minus the predicted
one. -/
noncomputable def assimilate : Ekf → List (Row 6) → Except EkfError Ekf
  | f, [] => .ok f
  | f, w :: rows => match f.updateScalar w.h (w.r - w.h ⬝ᵥ f.state) (w.σ ^ 2) with
    | .ok (g, _) => assimilate g rows
    | .error e => .error e

/-- One update in information form. -/
theorem update_information {f : Ekf} {A : Mat6} (hA : Spec.PosDef A) (hAP : A * f.cov = 1) (w : Row 6)
    (hσ : 0 < w.σ) :
    ∃ g rec, f.updateScalar w.h (w.r - w.h ⬝ᵥ f.state) (w.σ ^ 2) = .ok (g, rec) ∧
      Spec.PosDef (A + (1 / w.σ ^ 2) • vecMulVec w.h w.h) ∧ (A + (1 / w.σ ^ 2) • vecMulVec w.h w.h) * g.cov = 1 ∧
      (A + (1 / w.σ ^ 2) • vecMulVec w.h w.h) *ᵥ g.state = A *ᵥ f.state + (w.r / w.σ ^ 2) • w.h := by
  have hPA : f.cov * A = 1 := mul_eq_one_comm.mp hAP
  have hPs : f.cov.IsSymm := by
    have e : f.covᵀ * A = 1 := by
      have := congrArg Matrix.transpose hAP
      rwa [Matrix.transpose_mul, hA.1, Matrix.transpose_one] at this
    calc f.covᵀ = f.covᵀ * (A * f.cov) := by rw [hAP, Matrix.mul_one]
      _ = f.cov := by rw [← Matrix.mul_assoc, e, Matrix.one_mul]
  have hsemi : Spec.PosSemi f.cov := by
    refine ⟨hPs, fun u => ?_⟩
    have := fun hne => (hA.2 (f.cov *ᵥ u) hne).le
    rw [mulVec_mulVec, hAP, one_mulVec, dotProduct_comm] at this
    by_cases hz : f.cov *ᵥ u = 0
    · rw [hz]; simp
    · exact this hz
  have hr : 0 < w.σ ^ 2 := by positivity
  have hq := hsemi.2 w.h
  cases hu : f.updateScalar w.h (w.r - w.h ⬝ᵥ f.state) (w.σ ^ 2) with
  | error e =>
    rcases (update_fails_iff hsemi _ _ _).mp ⟨e, hu⟩ with h | h <;> linarith [h]
  | ok p =>
    obtain ⟨g, rec⟩ := p
    obtain ⟨-, hs, h1, h2, -⟩ := update_ok hPs hu
    refine ⟨g, rec, rfl, ⟨?_, fun x hx => ?_⟩, ?_, ?_⟩
    · refine Matrix.IsSymm.add hA.1 ?_
      ext i j
      simp [vecMulVec_apply, mul_comm]
    · have := hA.2 x hx
      have e : x ⬝ᵥ ((1 / w.σ ^ 2) • vecMulVec w.h w.h) *ᵥ x = (w.h ⬝ᵥ x) ^ 2 / w.σ ^ 2 := by
        rw [smul_mulVec, vecMulVec_mulVec]
        simp
        rw [dotProduct_comm x w.h]
        ring
      rw [add_mulVec, dotProduct_add, e]
      have : 0 ≤ (w.h ⬝ᵥ x) ^ 2 / w.σ ^ 2 := by positivity
      linarith
    · set s := w.σ ^ 2 + w.h ⬝ᵥ f.cov *ᵥ w.h with hsdef
      have hg : g.cov = f.cov - (1 / s) • vecMulVec (f.cov *ᵥ w.h) (f.cov *ᵥ w.h) := by
        rw [h2]
        unfold errorCov
        set y := f.cov *ᵥ w.h with hy
        have hyT : w.h ᵥ* f.cov = y := by rw [← mulVec_transpose, hPs]
        rw [transpose_sub, transpose_one, transpose_vecMulVec, sub_mul, one_mul, vecMulVec_mul, hyT, mul_sub, mul_one,
          sub_mul]
        rw [mul_vecMulVec, vecMulVec_mul_vecMulVec, ← hy]
        have hyd : y ⬝ᵥ w.h = s - w.σ ^ 2 := by rw [dotProduct_comm, hsdef]; ring
        rw [hyd]
        ext i j
        simp [vecMulVec_apply]
        field_simp
        ring
      have hAy : A *ᵥ f.cov *ᵥ w.h = w.h := by rw [mulVec_mulVec, hAP, one_mulVec]
      have hyT : w.h ᵥ* f.cov = f.cov *ᵥ w.h := by rw [← mulVec_transpose, hPs]
      rw [hg, add_mul, mul_sub, mul_sub, hAP, Matrix.mul_smul, Matrix.smul_mul, Matrix.smul_mul, Matrix.mul_smul,
        mul_vecMulVec, hAy, vecMulVec_mul, hyT, vecMulVec_mul_vecMulVec]
      have hd : w.h ⬝ᵥ f.cov *ᵥ w.h = s - w.σ ^ 2 := by rw [hsdef]; ring
      rw [hd]
      ext i j
      simp [vecMulVec_apply]
      field_simp
      ring
    · set s := w.σ ^ 2 + w.h ⬝ᵥ f.cov *ᵥ w.h with hsdef
      have hAy : A *ᵥ f.cov *ᵥ w.h = w.h := by rw [mulVec_mulVec, hAP, one_mulVec]
      have hd : w.h ⬝ᵥ f.cov *ᵥ w.h = s - w.σ ^ 2 := by rw [hsdef]; ring
      rw [h1, add_mulVec, mulVec_add, mulVec_add, mulVec_smul, mulVec_smul, hAy, smul_mulVec, smul_mulVec,
        vecMulVec_mulVec, vecMulVec_mulVec, dotProduct_smul, dotProduct_smul, hd]
      ext i
      simp
      field_simp
      ring

/-- **C88 (sequential = batch).** From a regular prior with information matrix `A`, assimilating any measurements
one after the other succeeds; the final state is the one with the smallest sum of the prior's and the measurements'
weighted squares, and the final covariance is the inverse of the total information. Hence the order of the
measurements does not matter, and the filter agrees with the batch solution of C87. -/
theorem filter_is_least_squares (f : Ekf) (A : Mat6) (hA : Spec.PosDef A) (hAP : A * f.cov = 1) (rows : List (Row 6))
    (hσ : ∀ w ∈ rows, 0 < w.σ) :
    ∃ g, assimilate f rows = .ok g ∧ (A + information rows) * g.cov = 1 ∧
      ∀ x, x ≠ g.state → (g.state - f.state) ⬝ᵥ A *ᵥ (g.state - f.state) + cost rows g.state <
        (x - f.state) ⬝ᵥ A *ᵥ (x - f.state) + cost rows x := by
  have main : ∀ (rows : List (Row 6)) (f : Ekf) (A : Mat6), Spec.PosDef A → A * f.cov = 1 → (∀ w ∈ rows, 0 < w.σ) →
      ∃ g, assimilate f rows = .ok g ∧ (A + information rows) * g.cov = 1 ∧ Spec.PosDef (A + information rows) ∧
        (A + information rows) *ᵥ g.state = A *ᵥ f.state + rhs rows := by
    intro rows
    induction rows with
    | nil =>
      intro f A hA hAP _
      exact ⟨f, rfl, by simpa [information] using hAP, by simpa [information] using hA, by simp [information, rhs]⟩
    | cons w rows ih =>
      intro f A hA hAP hσ
      obtain ⟨g, rec, h1, h2, h3, h4⟩ := update_information hA hAP w (hσ w (by simp))
      obtain ⟨g', i1, i2, i3, i4⟩ := ih g _ h2 h3 fun w hw => hσ w (by simp [hw])
      have e : A + information (w :: rows) = A + (1 / w.σ ^ 2) • vecMulVec w.h w.h + information rows := by
        rw [information_cons, add_assoc]
      refine ⟨g', ?_, by rw [e]; exact i2, by rw [e]; exact i3, ?_⟩
      · rw [assimilate, h1]; exact i1
      · rw [e, i4, h4, rhs_cons, add_assoc]
  obtain ⟨g, h1, h2, h3, h4⟩ := main rows f A hA hAP hσ
  refine ⟨g, h1, h2, fun x hx => ?_⟩
  have hpos := h3.2 (x - g.state) (sub_ne_zero.mpr hx)
  have total : ∀ y, (y - f.state) ⬝ᵥ A *ᵥ (y - f.state) + cost rows y
      = y ⬝ᵥ (A + information rows) *ᵥ y - 2 * ((A *ᵥ f.state + rhs rows) ⬝ᵥ y)
        + (f.state ⬝ᵥ A *ᵥ f.state + cost rows 0) := by
    intro y
    rw [quad_expand hA.1, cost_expand rows y, add_mulVec, dotProduct_add, add_dotProduct]
    ring
  have hsym : (A + information rows).IsSymm := h3.1
  rw [quad_expand hsym, h4] at hpos
  rw [total, total]
  have e5 : g.state ⬝ᵥ (A + information rows) *ᵥ g.state = (A *ᵥ f.state + rhs rows) ⬝ᵥ g.state := by
    rw [h4, dotProduct_comm]
  rw [dotProduct_comm g.state] at hpos
  rw [e5]
  linarith

/-- **C88 (order).** Two orders of the same measurements give the same state and covariance. -/
theorem filter_order_irrelevant (f : Ekf) (A : Mat6) (hA : Spec.PosDef A) (hAP : A * f.cov = 1)
    (rows rows' : List (Row 6)) (hp : rows.Perm rows') (hσ : ∀ w ∈ rows, 0 < w.σ) :
    assimilate f rows = assimilate f rows' := by
  have hσ' : ∀ w ∈ rows', 0 < w.σ := fun w hw => hσ w (hp.mem_iff.mpr hw)
  obtain ⟨g, h1, h2, h3⟩ := filter_is_least_squares f A hA hAP rows hσ
  obtain ⟨g', h1', h2', h3'⟩ := filter_is_least_squares f A hA hAP rows' hσ'
  have hi : information rows = information rows' := by
    unfold information
    exact (hp.map _).sum_eq
  have hc : ∀ x, cost rows x = cost rows' x := by
    intro x
    unfold cost
    exact (hp.map _).sum_eq
  have hs : g.state = g'.state := by
    by_contra hne
    have a := h3 g'.state (Ne.symm hne)
    have b := h3' g.state hne
    rw [hc, hc] at a
    linarith
  have hcv : g.cov = g'.cov := by
    rw [hi] at h2
    have e : g.cov * (A + information rows') = 1 := mul_eq_one_comm.mp h2
    calc g.cov = g.cov * ((A + information rows') * g'.cov) := by rw [h2', Matrix.mul_one]
      _ = g'.cov := by rw [← Matrix.mul_assoc, e, Matrix.one_mul]
  rw [h1, h1']
  obtain ⟨x, P⟩ := g
  obtain ⟨x', P'⟩ := g'
  dsimp only at hs hcv
  rw [hs, hcv]

/-- The unit prior meets the hypotheses. -/
example : Spec.PosDef (1 : Mat6) ∧ (1 : Mat6) * (⟨0, 1⟩ : Ekf).cov = 1 := by
  refine ⟨⟨by simp [Matrix.IsSymm], fun x hx => ?_⟩, by simp⟩
  rw [one_mulVec]
  obtain ⟨i, hi⟩ := Function.ne_iff.mp hx
  have hi' : x i ≠ 0 := hi
  exact lt_of_lt_of_le (mul_self_pos.mpr hi' : 0 < x i * x i)
    (Finset.single_le_sum (fun j _ => mul_self_nonneg (x j)) (Finset.mem_univ i))

end Verif.Estimation
