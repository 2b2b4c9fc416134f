import Verif.Estimation.Filter
import Mathlib.Data.List.GetD
import Mathlib.LinearAlgebra.Matrix.ToLinearEquiv
import Mathlib.LinearAlgebra.Matrix.NonsingularInverse

/-
C89: Gauss–Newton iteration.
-/
namespace Verif.Estimation
open Matrix Spec

/-- One iteration: assemble at `p`, solve, move. -/
def Step (c : Cholesky) (assemble : List ℝ → Except NonlinearError Normal) (p : List ℝ) (r : WlsResult)
    (p' : List ℝ) : Prop :=
  ∃ ne, assemble p = .ok ne ∧ ne.n = p.length ∧ ne.solve c = .ok r ∧ p' = moved p r

theorem fold_max {α : Type} (v : α → ℝ) (l : List α) (m : ℝ) :
    m ≤ l.foldl (fun m i => if v i > m then v i else m) m ∧
      ∀ i ∈ l, v i ≤ l.foldl (fun m i => if v i > m then v i else m) m := by
  induction l generalizing m with
  | nil => simp
  | cons a l ih =>
    rw [List.foldl_cons]
    obtain ⟨h1, h2⟩ := ih (if v a > m then v a else m)
    have h3 : m ≤ (if v a > m then v a else m) ∧ v a ≤ (if v a > m then v a else m) := by
      split
      · rename_i h; exact ⟨h.le, le_rfl⟩
      · rename_i h; exact ⟨le_rfl, not_lt.mp h⟩
    refine ⟨h3.1.trans h1, fun i hi => ?_⟩
    rcases List.mem_cons.mp hi with rfl | hi
    · exact h3.2.trans h1
    · exact h2 i hi

theorem relUpdate_le (p : List ℝ) (r : WlsResult) (i : Fin r.n) :
    |r.update i| ≤ relUpdate p r * max |p.getD i 0| 1 := by
  have h := (fold_max (fun i : Fin r.n => |r.update i| / max |p.getD i 0| 1) (List.finRange r.n) 0).2 i
    (List.mem_finRange i)
  have hp : 0 < max |p.getD i 0| 1 := lt_of_lt_of_le one_pos (le_max_right _ _)
  exact (div_le_iff₀ hp).mp h

theorem relUpdate_nonneg (p : List ℝ) (r : WlsResult) : 0 ≤ relUpdate p r :=
  (fold_max (fun i : Fin r.n => |r.update i| / max |p.getD i 0| 1) (List.finRange r.n) 0).1

theorem relUpdate_zero (p : List ℝ) (r : WlsResult) (h : ∀ i, r.update i = 0) : relUpdate p r = 0 := by
  unfold relUpdate
  have : ∀ l : List (Fin r.n), l.foldl (fun m i =>
      let rel := |r.update i| / max |p.getD i 0| 1
      if rel > m then rel else m) 0 = 0 := by
    intro l
    induction l with
    | nil => rfl
    | cons a l ih => rw [List.foldl_cons]; simpa [h a] using ih
  exact this _

/-- What is known of a run that ends with a report, from iteration `it` on. -/
theorem gnLoop_ok {c : Cholesky} {opts : Options} {assemble : List ℝ → Except NonlinearError Normal} :
    ∀ (fuel it : Nat) (p : List ℝ) (last : Option ℝ) (rep : Report),
      gnLoop c opts assemble fuel it p last = .ok rep →
      ∃ (k : Nat) (ps : Nat → List ℝ) (rs : Nat → WlsResult), k < fuel ∧ rep.iterations = it + k + 1 ∧ ps 0 = p ∧
        (∀ j ≤ k, Step c assemble (ps j) (rs j) (ps (j + 1))) ∧ rep.parameters = ps (k + 1) ∧ rep.last = rs k ∧
        relUpdate (ps k) (rs k) < opts.tolRel ∧
        ∃ prev, (if k = 0 then last else some (rs (k - 1)).reducedChi2) = some prev ∧ 0 < prev ∧
          |(rs k).reducedChi2 - prev| / prev < opts.tolChi2 := by
  intro fuel
  induction fuel with
  | zero => intro it p last rep h; cases h
  | succ fuel ih =>
    intro it p last rep h
    rw [gnLoop] at h
    cases ha : assemble p with
    | error e => rw [ha] at h; cases h
    | ok ne =>
      rw [ha] at h
      dsimp only at h
      by_cases hn : ne.n ≠ p.length
      · rw [if_pos hn] at h; cases h
      rw [if_neg hn] at h
      cases hs : ne.solve c with
      | error e => rw [hs] at h; cases h
      | ok r =>
        rw [hs] at h
        dsimp only at h
        have hstep : Step c assemble p r (moved p r) := ⟨ne, ha, not_not.mp hn, hs, rfl⟩
        by_cases hc : relUpdate p r < opts.tolRel ∧ below (chi2Change last r.reducedChi2) opts.tolChi2 = true
        · rw [if_pos hc] at h
          cases h
          refine ⟨0, fun j => if j = 0 then p else moved p r, fun _ => r, by omega, rfl, rfl, ?_, rfl, rfl, hc.1, ?_⟩
          · intro j hj
            obtain rfl : j = 0 := by omega
            exact hstep
          · obtain ⟨-, h2⟩ := hc
            unfold below chi2Change at h2
            cases last with
            | none => simp at h2
            | some l =>
              dsimp only at h2
              by_cases hl : 0 < l
              · rw [if_pos hl] at h2
                exact ⟨l, rfl, hl, of_decide_eq_true h2⟩
              · rw [if_neg hl] at h2; cases h2
        · rw [if_neg hc] at h
          obtain ⟨k, ps, rs, h1, h2, h3, h4, h5, h6, h7, prev, h8, h9, h10⟩ := ih _ _ _ _ h
          refine ⟨k + 1, fun j => match j with | 0 => p | j + 1 => ps j, fun j => match j with | 0 => r | j + 1 => rs j,
            by omega, by omega, rfl, ?_, h5, h6, h7, prev, ?_, h9, h10⟩
          · intro j hj
            cases j with
            | zero => rw [← h3] at hstep; dsimp only; rw [h3] at hstep ⊢; exact hstep
            | succ j => exact h4 j (by omega)
          · rw [if_neg (by omega)]
            cases k with
            | zero => rw [if_pos rfl] at h8; exact h8
            | succ k => rw [if_neg (by omega)] at h8; exact h8

/-- **C89 (report).** A report is given only for a run of at least two and at most `max_iter` iterations, each
assembled at the parameters the previous one left; the reported parameters are those after the last update, the
reported solution is the last one, every component of that update is below the relative tolerance, and the reduced
χ² changed by less than its tolerance. -/
theorem gauss_newton_report {c : Cholesky} {initial : List ℝ} {opts : Options}
    {assemble : List ℝ → Except NonlinearError Normal} {rep : Report}
    (h : gaussNewton c initial opts assemble = .ok rep) :
    2 ≤ rep.iterations ∧ rep.iterations ≤ opts.maxIter ∧
    ∃ (ps : Nat → List ℝ) (rs : Nat → WlsResult), ps 0 = initial ∧
      (∀ j < rep.iterations, Step c assemble (ps j) (rs j) (ps (j + 1))) ∧ rep.parameters = ps rep.iterations ∧
      rep.last = rs (rep.iterations - 1) ∧
      (∀ i, |(rs (rep.iterations - 1)).update i| < opts.tolRel * max |(ps (rep.iterations - 1)).getD i 0| 1) ∧
      |(rs (rep.iterations - 1)).reducedChi2 - (rs (rep.iterations - 2)).reducedChi2| <
        opts.tolChi2 * (rs (rep.iterations - 2)).reducedChi2 := by
  unfold gaussNewton at h
  by_cases h1 : opts.maxIter = 0
  · rw [if_pos h1] at h; cases h
  rw [if_neg h1] at h
  by_cases h2 : opts.tolRel < 0
  · rw [if_pos h2] at h; cases h
  rw [if_neg h2] at h
  by_cases h3 : opts.tolChi2 < 0
  · rw [if_pos h3] at h; cases h
  rw [if_neg h3] at h
  obtain ⟨k, ps, rs, k1, k2, k3, k4, k5, k6, k7, prev, k8, k9, k10⟩ := gnLoop_ok _ _ _ _ _ h
  cases k with
  | zero => rw [if_pos rfl] at k8; cases k8
  | succ k =>
    rw [if_neg (by omega)] at k8
    have hi : rep.iterations = k + 2 := by omega
    refine ⟨by omega, by omega, ps, rs, k3, ?_, ?_, ?_, ?_, ?_⟩
    · intro j hj; exact k4 j (by omega)
    · rw [k5, hi]
    · rw [k6, hi]; rfl
    · rw [hi]
      intro i
      have hp : 0 < max |(ps (k + 1)).getD i 0| 1 := lt_of_lt_of_le one_pos (le_max_right _ _)
      exact lt_of_le_of_lt (relUpdate_le (ps (k + 1)) (rs (k + 1)) i) (mul_lt_mul_of_pos_right k7 hp)
    · rw [hi]
      cases k8
      exact (div_lt_iff₀ k9).mp k10

/-- **C89 (finding).** The documentation allows tolerances of zero, but the comparisons are strict: with a zero
tolerance no run ever converges, whatever the problem. -/
theorem zero_tolerance_never_converges (c : Cholesky) (initial : List ℝ) (opts : Options)
    (assemble : List ℝ → Except NonlinearError Normal) (h : opts.tolRel = 0 ∨ opts.tolChi2 = 0) (rep : Report) :
    gaussNewton c initial opts assemble ≠ .ok rep := by
  intro hok
  unfold gaussNewton at hok
  split at hok
  · cases hok
  split at hok
  · cases hok
  split at hok
  · cases hok
  obtain ⟨k, ps, rs, -, -, -, -, -, -, h7, prev, -, h9, h10⟩ := gnLoop_ok _ _ _ _ _ hok
  rcases h with h | h
  · rw [h] at h7
    exact absurd h7 (not_lt.mpr (relUpdate_nonneg _ _))
  · rw [h] at h10
    exact absurd h10 (not_lt.mpr (by positivity))

/-! ### Linear problems -/

/-- A parameter list as a vector. -/
def vec (n : Nat) (p : List ℝ) : Fin n → ℝ := fun i => p.getD i 0

/-- Residuals of the measurements after moving to `x`. -/
noncomputable def shift {n : Nat} (rows : List (Row n)) (x : Fin n → ℝ) : List (Row n) :=
  rows.map fun w => ⟨w.h, w.r - w.h ⬝ᵥ x, w.σ⟩

theorem cost_shift {n : Nat} (rows : List (Row n)) (x y : Fin n → ℝ) : cost (shift rows x) y = cost rows (x + y) := by
  unfold cost shift
  rw [List.map_map]
  congr 1
  apply List.map_congr_left
  intro w _
  simp [dotProduct_add]
  ring

/-- The callback assembles, at every parameter vector, the residuals of the same linear measurements. -/
def Linear {n : Nat} (rows : List (Row n)) (assemble : List ℝ → Except NonlinearError Normal) : Prop :=
  ∀ p : List ℝ, p.length = n → ∃ ne, assemble p = .ok ne ∧ Built n (shift rows (vec n p)) ne

/-- The one vector with the smallest cost. -/
def Best {n : Nat} (rows : List (Row n)) (u : Fin n → ℝ) : Prop := ∀ x, x ≠ u → cost rows u < cost rows x

theorem Best.unique {n : Nat} {rows : List (Row n)} {u v : Fin n → ℝ} (hu : Best rows u) (hv : Best rows v) : u = v := by
  by_contra h
  exact absurd (hu v (Ne.symm h)) (not_lt.mpr (hv u h).le)

theorem linear_step {c : Cholesky} (hc : c.Correct) {n : Nat} {rows : List (Row n)}
    (hobs : ¬ ∃ x, Unseen rows x) {assemble : List ℝ → Except NonlinearError Normal} (hl : Linear rows assemble)
    (p : List ℝ) (hp : p.length = n) :
    ∃ ne r, assemble p = .ok ne ∧ ne.n = p.length ∧ ne.solve c = .ok r ∧ (moved p r).length = n ∧
      Best rows (vec n (moved p r)) ∧ (vec n p = vec n (moved p r) → ∀ i, r.update i = 0) ∧
      r.reducedChi2 = cost rows (vec n p) / ((max (rows.length - n) 1 : Nat) : ℝ) := by
  obtain ⟨ne, ha, hb⟩ := hl p hp
  have hno : ¬ ∃ e, ne.solve c = .error e := by
    rw [solve_fails_iff hc hb]
    rintro ⟨x, hx, h0⟩
    apply hobs
    refine ⟨x, hx, fun w hw => ?_⟩
    exact h0 ⟨w.h, w.r - w.h ⬝ᵥ vec n p, w.σ⟩ (List.mem_map.mpr ⟨w, hw, rfl⟩)
  cases hs : ne.solve c with
  | error e => exact absurd ⟨e, hs⟩ hno
  | ok r =>
    obtain ⟨hn, u, C, hu, -, hmin, -, -, -, hchi, hob⟩ := solve_minimises hc hb hs
    subst hn
    have hv : vec r.n (moved p r) = vec r.n p + u := by
      funext i
      have hi : (i : Nat) < p.length := by rw [hp]; exact i.2
      simp only [vec, moved, Pi.add_apply]
      rw [List.getD_eq_getElem _ _ (by simpa using hi), List.getD_eq_getElem _ _ hi, List.getElem_mapIdx,
        dif_pos i.2, hu i]
      rfl
    refine ⟨ne, r, ha, ?_, hs, ?_, ?_, ?_, ?_⟩
    · rw [hp]; exact (built_represents hb).size
    · unfold moved; rw [List.length_mapIdx, hp]
    · rw [hv]
      intro x hx
      have := hmin (x - vec r.n p) (by intro h; apply hx; rw [← h]; abel)
      rw [cost_shift, cost_shift] at this
      simpa using this
    · intro h i
      rw [hv] at h
      have : u = 0 := by simpa using h
      rw [this] at hu
      exact (hu i).symm
    · unfold WlsResult.reducedChi2
      rw [hchi, hob, cost_shift, add_zero]
      simp [shift]

/-- A linear problem with a minimum: the iterations of the loop in order. -/
theorem linear_run {c : Cholesky} (hc : c.Correct) {n : Nat} {rows : List (Row n)}
    (hobs : ¬ ∃ x, Unseen rows x) {assemble : List ℝ → Except NonlinearError Normal} (hl : Linear rows assemble)
    (opts : Options) (fuel it : Nat) (p : List ℝ) (hp : p.length = n) (last : Option ℝ) :
    ∃ r, (moved p r).length = n ∧ Best rows (vec n (moved p r)) ∧
      (vec n p = vec n (moved p r) → relUpdate p r = 0) ∧
      gnLoop c opts assemble (fuel + 1) it p last =
        if relUpdate p r < opts.tolRel ∧ 
            below (chi2Change last (cost rows (vec n p) / ((max (rows.length - n) 1 : Nat) : ℝ))) opts.tolChi2 = true
        then .ok ⟨moved p r, r, it + 1⟩
        else gnLoop c opts assemble fuel (it + 1) (moved p r)
          (some (cost rows (vec n p) / ((max (rows.length - n) 1 : Nat) : ℝ))) := by
  obtain ⟨ne, r, h1, h2, h3, h4, h5, h6, h7⟩ := linear_step hc hobs hl p hp
  refine ⟨r, h4, h5, fun h => relUpdate_zero _ _ (h6 h), ?_⟩
  rw [gnLoop, h1]
  dsimp only
  rw [if_neg (not_not.mpr h2), h3]
  dsimp only
  rw [h7]

theorem dof_pos (a b : Nat) : (0 : ℝ) < ((max (a - b) 1 : Nat) : ℝ) := by
  have : 0 < max (a - b) 1 := lt_of_lt_of_le one_pos (le_max_right _ _)
  exact_mod_cast this

theorem chi2_repeat {l : ℝ} (hl : 0 < l) : chi2Change (some l) l = some 0 := by
  simp [chi2Change, hl]

/-- **C89 (linear problems with noise).** If no parameter direction is unseen, the measurements do not fit exactly,
the tolerances are positive and three iterations are allowed, the iteration converges within three iterations, from
every starting point, to the least-squares solution. -/
theorem linear_converges {c : Cholesky} (hc : c.Correct) {n : Nat} {rows : List (Row n)}
    (hobs : ¬ ∃ x, Unseen rows x) (hnoise : ∀ x, 0 < cost rows x)
    {assemble : List ℝ → Except NonlinearError Normal} (hl : Linear rows assemble) (opts : Options)
    (h1 : 0 < opts.tolRel) (h2 : 0 < opts.tolChi2) (h3 : 3 ≤ opts.maxIter) (initial : List ℝ)
    (hi : initial.length = n) :
    ∃ rep, gaussNewton c initial opts assemble = .ok rep ∧ rep.iterations ≤ 3 ∧ Best rows (vec n rep.parameters) := by
  obtain ⟨m, hm⟩ : ∃ m, opts.maxIter = m + 1 + 1 + 1 := ⟨opts.maxIter - 3, by omega⟩
  have hd := dof_pos rows.length n
  unfold gaussNewton
  rw [if_neg (by omega), if_neg (by linarith), if_neg (by linarith), hm]
  obtain ⟨r1, a1, b1, -, e1⟩ := linear_run hc hobs hl opts (m + 1 + 1) 0 initial hi none
  rw [e1, if_neg (by simp [chi2Change, below])]
  obtain ⟨r2, a2, b2, c2, e2⟩ := linear_run hc hobs hl opts (m + 1) (0 + 1) _ a1
    (some (cost rows (vec n initial) / ((max (rows.length - n) 1 : Nat) : ℝ)))
  rw [e2]
  split
  · exact ⟨_, rfl, by norm_num, b2⟩
  · obtain ⟨r3, a3, b3, c3, e3⟩ := linear_run hc hobs hl opts m (0 + 1 + 1) _ a2
      (some (cost rows (vec n (moved initial r1)) / ((max (rows.length - n) 1 : Nat) : ℝ)))
    have hsame : vec n (moved initial r1) = vec n (moved (moved initial r1) r2) := b1.unique b2
    rw [e3, if_pos]
    · exact ⟨_, rfl, by norm_num, b3⟩
    · refine ⟨?_, ?_⟩
      · rw [c3 (b2.unique b3)]; exact h1
      · rw [← hsame, chi2_repeat (div_pos (hnoise _) hd)]
        simpa [below] using h2

/-- **C89 (finding).** When the measurements fit exactly (simulated data), the iteration finds the solution in one
step but never reports convergence, for any number of iterations and any χ² tolerance up to 1: a vanishing χ² is
treated as an infinite relative change. -/
theorem perfect_fit_never_converges {c : Cholesky} (hc : c.Correct) {n : Nat} {rows : List (Row n)}
    (hobs : ¬ ∃ x, Unseen rows x) {x0 : Fin n → ℝ} (hfit : cost rows x0 = 0)
    {assemble : List ℝ → Except NonlinearError Normal} (hl : Linear rows assemble) (opts : Options)
    (h0 : 0 < opts.maxIter) (h1 : 0 ≤ opts.tolRel) (h2 : 0 ≤ opts.tolChi2) (h3 : opts.tolChi2 ≤ 1)
    (initial : List ℝ) (hi : initial.length = n) :
    gaussNewton c initial opts assemble = .error .didNotConverge := by
  have hd := dof_pos rows.length n
  have hnn : ∀ x, 0 ≤ cost rows x := by
    intro x
    unfold cost
    apply List.sum_nonneg
    intro y hy
    obtain ⟨w, -, rfl⟩ := List.mem_map.mp hy
    exact sq_nonneg _
  have hbest : ∀ u, Best rows u → cost rows u = 0 := by
    intro u hu
    by_cases h : x0 = u
    · rw [← h]; exact hfit
    · have := hu x0 h
      rw [hfit] at this
      exact absurd this (not_lt.mpr (hnn u))
  -- once at the solution with a previous χ² of zero
  have late : ∀ fuel it p, p.length = n → gnLoop c opts assemble fuel it p (some 0) = .error .didNotConverge ∨
      cost rows (vec n p) ≠ 0 := by
    intro fuel
    induction fuel with
    | zero => intro it p _; left; rfl
    | succ fuel ih =>
      intro it p hp
      by_cases hz : cost rows (vec n p) = 0
      · left
        obtain ⟨r, a, b, -, e⟩ := linear_run hc hobs hl opts fuel it p hp (some 0)
        rw [e, if_neg (by simp [chi2Change, below]), hz, zero_div]
        rcases ih (it + 1) _ a with h | h
        · exact h
        · exact absurd (hbest _ b) h
      · right; exact hz
  unfold gaussNewton
  rw [if_neg (by omega), if_neg (by linarith), if_neg (by linarith)]
  obtain ⟨m, hm⟩ : ∃ m, opts.maxIter = m + 1 := ⟨opts.maxIter - 1, by omega⟩
  rw [hm]
  obtain ⟨r1, a1, b1, -, e1⟩ := linear_run hc hobs hl opts m 0 initial hi none
  rw [e1, if_neg (by simp [chi2Change, below])]
  cases m with
  | zero => rfl
  | succ m =>
    obtain ⟨r2, a2, b2, c2, e2⟩ := linear_run hc hobs hl opts m (0 + 1) _ a1
      (some (cost rows (vec n initial) / ((max (rows.length - n) 1 : Nat) : ℝ)))
    rw [e2, hbest _ b1, zero_div, if_neg]
    · rcases late m (0 + 1 + 1) _ a2 with h | h
      · exact h
      · exact absurd (hbest _ b2) h
    · rintro ⟨-, h⟩
      unfold below chi2Change at h
      by_cases hp : 0 < cost rows (vec n initial) / ((max (rows.length - n) 1 : Nat) : ℝ)
      · dsimp only at h
        rw [if_pos hp] at h
        have h' := of_decide_eq_true h
        rw [zero_sub, abs_neg, abs_of_pos hp, div_self hp.ne'] at h'
        linarith
      · dsimp only at h
        rw [if_neg hp] at h
        cases h

/-- The example of the crate's own test, `y = x` measured as 3: a linear problem that fits exactly. -/
example : (¬ ∃ x, Unseen [rowOf 1 [(0, 1)] 3 0.1] x) ∧ cost [rowOf 1 [(0, 1)] 3 0.1] (fun _ => 3) = 0 ∧
    ∃ assemble, Linear [rowOf 1 [(0, 1)] 3 0.1] assemble := by
  refine ⟨?_, ?_, ?_⟩
  · rintro ⟨x, hx, h⟩
    have e := h (rowOf 1 [(0, 1)] 3 0.1) (by simp)
    simp [rowOf, dotProduct, coef] at e
    exact hx (by ext i; fin_cases i; exact e)
  · simp [cost, rowOf, dotProduct, coef]
  · classical
    refine ⟨fun p => .ok ((Normal.new 1).addRow (finite [(0, 1)]) (some (3 - p.getD 0 0)) (some 0.1)).1, fun p hp => ?_⟩
    refine ⟨_, rfl, ?_⟩
    obtain ⟨s, hs⟩ := add_row_accepts (Normal.new 1) [(0, 1)] (3 - p.getD 0 0) 0.1 (by norm_num) (by simp [Normal.new])
    have := Built.add Built.new hs
    rw [hs]
    have e : shift [rowOf 1 [(0, 1)] 3 0.1] (vec 1 p) = [rowOf 1 [(0, 1)] (3 - p.getD 0 0) 0.1] := by
      simp [shift, rowOf, dotProduct, coef, vec]
    rw [e]
    exact this

/-- A value measured as 0 and as 1: nothing is unseen and no parameter fits exactly. -/
example : (¬ ∃ x, Unseen [rowOf 1 [(0, 1)] 0 1, rowOf 1 [(0, 1)] 1 1] x) ∧
    ∀ x, 0 < cost [rowOf 1 [(0, 1)] 0 1, rowOf 1 [(0, 1)] 1 1] x := by
  refine ⟨?_, fun x => ?_⟩
  · rintro ⟨x, hx, h⟩
    have e := h (rowOf 1 [(0, 1)] 0 1) (by simp)
    simp [rowOf, dotProduct, coef] at e
    exact hx (by ext i; fin_cases i; exact e)
  · simp [cost, rowOf, dotProduct, coef]
    nlinarith [sq_nonneg (x 0 - 1 / 2), sq_nonneg (x 0)]

/-- The contract of the factorisation can be met. -/
example : ∃ c : Cholesky, c.Correct := by
  classical
  have inj : ∀ {n : Nat} {A B : Matrix (Fin n) (Fin n) ℝ},
      (fun i j => some (A i j) : Fin n → Fin n → Val) = (fun i j => some (B i j)) → A = B := by
    intro n A B h
    ext i j
    exact Option.some.inj (congrFun (congrFun h i) j)
  have solves : ∀ {n : Nat} {A : Matrix (Fin n) (Fin n) ℝ}, Spec.PosDef A → ∀ b, A *ᵥ (A⁻¹ *ᵥ b) = b := by
    intro n A hA b
    have hdet : IsUnit A.det := by
      rw [isUnit_iff_ne_zero]
      intro h0
      obtain ⟨v, hv, hz⟩ := Matrix.exists_mulVec_eq_zero_iff.mpr h0
      have := hA.2 v hv
      rw [hz] at this
      simp at this
    rw [mulVec_mulVec, Matrix.mul_nonsing_inv _ hdet, one_mulVec]
  refine ⟨⟨fun n M => if h : ∃ A : Matrix (Fin n) (Fin n) ℝ, Spec.PosDef A ∧ M = fun i j => some (A i j) then
    some fun b => h.choose⁻¹ *ᵥ b else none⟩, ⟨fun n A hA => ?_, fun n A f hs hf => ?_⟩⟩
  · dsimp only
    rw [dif_pos ⟨A, hA, rfl⟩]
    simp
  · dsimp only at hf
    by_cases h : ∃ B : Matrix (Fin n) (Fin n) ℝ, Spec.PosDef B ∧ (fun i j => some (A i j)) = fun i j => some (B i j)
    · rw [dif_pos h] at hf
      have e := inj h.choose_spec.2
      cases hf
      have hp := h.choose_spec.1
      rw [← e] at hp
      refine ⟨hp, fun b => ?_⟩
      rw [← e]
      exact solves hp b
    · rw [dif_neg h] at hf; cases hf

end Verif.Estimation
