import Verif.Handover.Model

/-
C221: batch solution to filter.
-/
namespace Verif.Handover
open Matrix Verif.Estimation Verif.Estimation.Spec

/-- **C221 (six parameters only).** -/
theorem covariance_iff (r : WlsResult) : (toStateCovariance r).isSome ↔ r.n = 6 := by
  unfold toStateCovariance
  split <;> simp_all

/-- **C221 (nothing lost).** A symmetric posterior covariance of six parameters is handed over entry by entry. -/
theorem covariance_kept (r : WlsResult) (hn : r.n = 6) (hs : ∀ i j, r.covariance i j = r.covariance j i) :
    ∃ sc, toStateCovariance r = some sc ∧
      ∀ i j : Fin 6, sc.rowMajor i j = r.covariance (i.cast hn.symm) (j.cast hn.symm) := by
  unfold toStateCovariance
  rw [dif_pos hn]
  refine ⟨_, rfl, fun i j => ?_⟩
  unfold StateCov.rowMajor
  have hp : ∀ (k : Fin 6) (h : (k : Nat) < 3), pos ⟨k, h⟩ = k := fun k h => rfl
  have hv : ∀ (k : Fin 6) (h : ¬ (k : Nat) < 3), vel ⟨k - 3, by omega⟩ = k := by
    intro k h
    apply Fin.ext
    show (k : Nat) - 3 + 3 = k
    omega
  by_cases hi : (i : Nat) < 3
  · by_cases hj : (j : Nat) < 3
    · rw [dif_pos hi, dif_pos hj]
      show (if _ then _ else _) = _
      split
      · rfl
      · exact hs _ _
    · rw [dif_pos hi, dif_neg hj]
      dsimp only
      rw [hv j hj, hp i hi]
  · by_cases hj : (j : Nat) < 3
    · rw [dif_neg hi, dif_pos hj]
      dsimp only
      rw [hv i hi, hp j hj]
      exact hs _ _
    · rw [dif_neg hi, dif_neg hj]
      show (if _ then _ else _) = _
      rw [hv i hi, hv j hj]
      split
      · rfl
      · exact hs _ _

theorem information_shift {n : Nat} (rows : List (Row n)) (x : Fin n → ℝ) :
    information (shift rows x) = information rows := by
  unfold information shift
  rw [List.map_map]
  rfl

theorem information_append {n : Nat} (a b : List (Row n)) : information (a ++ b) = information a + information b := by
  simp [information]

theorem cost_append {n : Nat} (a b : List (Row n)) (x : Fin n → ℝ) : cost (a ++ b) x = cost a x + cost b x := by
  simp [cost]

/-- The inverse of a regular information matrix determines the best vector, and the cost around it. -/
theorem best_parabola {n : Nat} {rows : List (Row n)} {C : Matrix (Fin n) (Fin n) ℝ} {u : Fin n → ℝ}
    (hC : information rows * C = 1) (hu : Best rows u)
    (hpd : ∀ x, x ≠ 0 → 0 < x ⬝ᵥ information rows *ᵥ x) (x : Fin n → ℝ) :
    cost rows x = cost rows u + (x - u) ⬝ᵥ information rows *ᵥ (x - u) := by
  have hv : information rows *ᵥ (C *ᵥ rhs rows) = rhs rows := by rw [mulVec_mulVec, hC, one_mulVec]
  have hb : Best rows (C *ᵥ rhs rows) := by
    intro y hy
    rw [cost_around hv y]
    have := hpd (y - C *ᵥ rhs rows) (sub_ne_zero.mpr hy)
    linarith
  rw [hu.unique hb]
  exact cost_around hv x

/-- **C221 (batch, then sequential).** Solve a batch of measurements linearised at `x0`, start the filter at the
corrected state with the covariance of the solution, and let it assimilate further measurements one by one: this
succeeds, the state is the best for all measurements together, and the covariance is the inverse of their joint
information. -/
theorem handover {c : Cholesky} (hc : c.Correct) (x0 : Vec6) (batch later : List (Row 6)) {s : Normal}
    (hs : Built 6 (shift batch x0) s) {res : WlsResult} (h : s.solve c = .ok res) (hσ : ∀ w ∈ later, 0 < w.σ) :
    ∃ (hn : res.n = 6) (sc : StateCov) (g : Ekf), toStateCovariance res = some sc ∧
      assimilate (newFilter (fun i => x0 i + res.update (i.cast hn.symm)) sc) later = .ok g ∧
      Best (batch ++ later) g.state ∧ information (batch ++ later) * g.cov = 1 := by
  obtain ⟨hn, u, C, hu, hC, hmin, hI, hI', hpd, -, -⟩ := solve_minimises hc hs h
  have hsym : ∀ i j, res.covariance i j = res.covariance j i := by
    intro i j
    have e := congrFun (congrFun hpd.1 (i.cast hn)) (j.cast hn)
    rw [Matrix.transpose_apply, hC, hC] at e
    simpa using e.symm
  obtain ⟨sc, h1, h2⟩ := covariance_kept res hn hsym
  have hsc : sc.rowMajor = C := by
    ext i j
    rw [h2, hC]
  rw [information_shift] at hI hI'
  -- the information matrix is positive definite
  have hA : Spec.PosDef (information batch) := by
    refine ⟨information_symm batch, fun x hx => ?_⟩
    have hne : information batch *ᵥ x ≠ 0 := by
      intro h0
      apply hx
      have := congrArg (C *ᵥ ·) h0
      simpa [mulVec_mulVec, hI'] using this
    have := hpd.2 _ hne
    rw [mulVec_mulVec, hI', one_mulVec, dotProduct_comm] at this
    exact this
  set f : Ekf := newFilter (fun i => x0 i + res.update (i.cast hn.symm)) sc with hf
  have hfc : f.cov = C := hsc
  have hfs : f.state = x0 + u := by
    funext i
    show x0 i + res.update (i.cast hn.symm) = _
    rw [Pi.add_apply, hu]
  obtain ⟨g, g1, g2, g3⟩ := filter_is_least_squares f (information batch) hA (by rw [hfc]; exact hI) later hσ
  refine ⟨hn, sc, g, h1, g1, ?_, by rw [information_append]; exact g2⟩
  have hbest : Best batch f.state := by
    intro x hx
    have := hmin (x - x0) (by intro e; apply hx; rw [hfs, ← e]; abel)
    rw [cost_shift, cost_shift] at this
    rw [hfs]
    simpa using this
  intro x hx
  have := g3 x hx
  rw [cost_append, cost_append, best_parabola hI hbest hA.2 g.state, best_parabola hI hbest hA.2 x]
  linarith

/-- **C221 (agreement with one batch).** The result is the one a single batch of all the measurements gives, whatever
state it is linearised at: same state, same covariance. -/
theorem handover_is_batch {c : Cholesky} (hc : c.Correct) (x0 x1 : Vec6) (batch later : List (Row 6)) {s s' : Normal}
    (hs : Built 6 (shift batch x0) s) {res : WlsResult} (h : s.solve c = .ok res)
    (hs' : Built 6 (shift (batch ++ later) x1) s') :
    ∃ (hn : res.n = 6) (sc : StateCov) (g : Ekf) (res' : WlsResult) (hn' : res'.n = 6),
      toStateCovariance res = some sc ∧
      assimilate (newFilter (fun i => x0 i + res.update (i.cast hn.symm)) sc) later = .ok g ∧
      s'.solve c = .ok res' ∧ (∀ i, g.state i = x1 i + res'.update (i.cast hn'.symm)) ∧
      ∀ i j, g.cov i j = res'.covariance (i.cast hn'.symm) (j.cast hn'.symm) := by
  have hσ : ∀ w ∈ later, 0 < w.σ := by
    intro w hw
    exact (built_represents hs').sigma ⟨w.h, w.r - w.h ⬝ᵥ x1, w.σ⟩
      (List.mem_map.mpr ⟨w, List.mem_append_right _ hw, rfl⟩)
  obtain ⟨hn, sc, g, h1, h2, h3, h4⟩ := handover hc x0 batch later hs h hσ
  have hok : ¬ ∃ e, s'.solve c = .error e := by
    rw [solve_fails_iff hc hs']
    rintro ⟨x, hx, h0⟩
    apply hx
    have hz : information (batch ++ later) *ᵥ x = 0 := by
      have hq : ∀ y, y ⬝ᵥ information (batch ++ later) *ᵥ x = 0 := by
        intro y
        rw [information_form]
        apply List.sum_eq_zero
        intro t ht
        obtain ⟨w, hw, rfl⟩ := List.mem_map.mp ht
        have := h0 ⟨w.h, w.r - w.h ⬝ᵥ x1, w.σ⟩ (List.mem_map.mpr ⟨w, hw, rfl⟩)
        dsimp only at this
        rw [this]
        simp
      funext i
      have := hq (Pi.single i 1)
      simpa using this
    have e : g.cov * information (batch ++ later) = 1 := mul_eq_one_comm.mp h4
    have := congrArg (g.cov *ᵥ ·) hz
    simpa [mulVec_mulVec, e] using this
  cases hr : s'.solve c with
  | error e => exact absurd ⟨e, hr⟩ hok
  | ok res' =>
    obtain ⟨hn', u, C, hu, hC, hmin, hI, hI', -, -, -⟩ := solve_minimises hc hs' hr
    refine ⟨hn, sc, g, res', hn', h1, h2, rfl, fun i => ?_, fun i j => ?_⟩
    · have hb : Best (batch ++ later) (x1 + u) := by
        intro x hx
        have := hmin (x - x1) (by intro e; apply hx; rw [← e]; abel)
        rw [cost_shift, cost_shift] at this
        simpa using this
      rw [h3.unique hb, Pi.add_apply, hu]
    · rw [information_shift] at hI hI'
      have : g.cov = C := by
        calc g.cov = C * information (batch ++ later) * g.cov := by rw [hI', Matrix.one_mul]
          _ = C := by rw [Matrix.mul_assoc, h4, Matrix.mul_one]
      rw [this, hC]

/-- **C221 (starting deviations).** The filter started from standard deviations has their squares on the diagonal and
nothing else; its covariance is positive definite exactly when no deviation is zero, and always positive
semidefinite. -/
theorem stddevs_covariance (state : Vec6) (p v : Fin 3 → ℝ) :
    (fromStddevs state p v).state = state ∧
    (∀ i, (fromStddevs state p v).cov (pos i) (pos i) = p i ^ 2) ∧
    (∀ i, (fromStddevs state p v).cov (vel i) (vel i) = v i ^ 2) ∧
    (∀ i j, i ≠ j → (fromStddevs state p v).cov i j = 0) ∧
    Spec.PosSemi (fromStddevs state p v).cov ∧
    (Spec.PosDef (fromStddevs state p v).cov ↔ ∀ i, p i ≠ 0 ∧ v i ≠ 0) := by
  have hd : (fromStddevs state p v).cov
      = Matrix.diagonal ![p 0 ^ 2, p 1 ^ 2, p 2 ^ 2, v 0 ^ 2, v 1 ^ 2, v 2 ^ 2] := by
    ext i j
    fin_cases i <;> fin_cases j <;>
      simp [fromStddevs, newFilter, StateCov.rowMajor, diagonalFromSigmas, Matrix.diagonal, pow_two]
  have hq : ∀ x : Vec6, x ⬝ᵥ (fromStddevs state p v).cov *ᵥ x =
      (p 0 * x 0) ^ 2 + (p 1 * x 1) ^ 2 + (p 2 * x 2) ^ 2 + (v 0 * x 3) ^ 2 + (v 1 * x 4) ^ 2 + (v 2 * x 5) ^ 2 := by
    intro x
    rw [hd, dotProduct, Fin.sum_univ_six]
    simp only [mulVec_diagonal]
    simp
    ring
  have hsym : (fromStddevs state p v).cov.IsSymm := by rw [hd]; exact Matrix.isSymm_diagonal _
  refine ⟨rfl, fun i => ?_, fun i => ?_, fun i j hij => ?_, ⟨hsym, fun x => ?_⟩, ?_⟩
  · rw [hd]; fin_cases i <;> simp [pos, Matrix.diagonal]
  · rw [hd]; fin_cases i <;> simp [vel, Matrix.diagonal]
  · rw [hd, Matrix.diagonal_apply_ne _ hij]
  · rw [hq]; positivity
  · constructor
    · intro hpd i
      constructor
      · intro h0
        have := hpd.2 (Pi.single (pos i) 1) (by
          intro e; have := congrFun e (pos i); simp at this)
        rw [hq] at this
        fin_cases i <;> simp [pos, h0, Pi.single_apply] at this <;> simp_all
      · intro h0
        have := hpd.2 (Pi.single (vel i) 1) (by
          intro e; have := congrFun e (vel i); simp at this)
        rw [hq] at this
        fin_cases i <;> simp [vel, h0, Pi.single_apply] at this <;> simp_all
    · intro h
      refine ⟨hsym, fun x hx => ?_⟩
      rw [hq]
      by_contra hle
      apply hx
      have e : ∀ k y : ℝ, k ≠ 0 → (k * y) ^ 2 ≤ 0 → y = 0 := by
        intro k y hk hy
        have : k * y = 0 := by nlinarith [sq_nonneg (k * y)]
        exact (mul_eq_zero.mp this).resolve_left hk
      have s := fun a : ℝ => sq_nonneg a
      have hle := not_lt.mp hle
      have e0 : x 0 = 0 := e (p 0) _ (h 0).1 (by linarith [s (p 1 * x 1), s (p 2 * x 2), s (v 0 * x 3), s (v 1 * x 4), s (v 2 * x 5)])
      have e1 : x 1 = 0 := e (p 1) _ (h 1).1 (by linarith [s (p 0 * x 0), s (p 2 * x 2), s (v 0 * x 3), s (v 1 * x 4), s (v 2 * x 5)])
      have e2 : x 2 = 0 := e (p 2) _ (h 2).1 (by linarith [s (p 0 * x 0), s (p 1 * x 1), s (v 0 * x 3), s (v 1 * x 4), s (v 2 * x 5)])
      have e3 : x 3 = 0 := e (v 0) _ (h 0).2 (by linarith [s (p 0 * x 0), s (p 1 * x 1), s (p 2 * x 2), s (v 1 * x 4), s (v 2 * x 5)])
      have e4 : x 4 = 0 := e (v 1) _ (h 1).2 (by linarith [s (p 0 * x 0), s (p 1 * x 1), s (p 2 * x 2), s (v 0 * x 3), s (v 2 * x 5)])
      have e5 : x 5 = 0 := e (v 2) _ (h 2).2 (by linarith [s (p 0 * x 0), s (p 1 * x 1), s (p 2 * x 2), s (v 0 * x 3), s (v 1 * x 4)])
      funext i
      fin_cases i
      exacts [e0, e1, e2, e3, e4, e5]

/-- Six direct measurements of the state: the batch can be built at any linearisation point and determines the
state, so the hypotheses of `handover` hold for it. -/
example {c : Cholesky} (hc : c.Correct) (x0 : Vec6) : ∃ (batch : List (Row 6)) (s : Normal) (res : WlsResult),
    Built 6 (shift batch x0) s ∧ s.solve c = .ok res := by
  have build : ∀ (ks : List (Fin 6)), ∃ s, Built 6 (shift (ks.map fun k : Fin 6 => rowOf 6 [((k : Nat), 1)] 1 2) x0) s := by
    intro ks
    induction ks with
    | nil => exact ⟨_, Built.new⟩
    | cons k ks ih =>
      obtain ⟨s, hs⟩ := ih
      obtain ⟨s', h'⟩ := add_row_accepts s [((k : Nat), 1)] (1 - (rowOf 6 [((k : Nat), 1)] 1 2).h ⬝ᵥ x0) 2 two_pos
        (by simp [(built_represents hs).size])
      exact ⟨s', Built.add hs h'⟩
  obtain ⟨s, hs⟩ := build (List.finRange 6)
  cases hr : s.solve c with
  | ok res => exact ⟨_, s, res, hs, hr⟩
  | error e =>
    obtain ⟨x, hx, h0⟩ := (solve_fails_iff hc hs).mp ⟨e, hr⟩
    exfalso
    apply hx
    funext i
    have := h0 _ (List.mem_map.mpr ⟨_, List.mem_map.mpr ⟨i, List.mem_finRange i, rfl⟩, rfl⟩)
    simpa [rowOf, coef, dotProduct, ← Fin.ext_iff] using this

end Verif.Handover
