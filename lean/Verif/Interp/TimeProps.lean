import Mathlib.Topology.MetricSpace.Contracting
import Verif.Interp.TimeModel

/-!
Property C62: the TT to ET conversion solves the NAIF equation.
-/
namespace Verif.Interp.Time

/-- The equation of the NAIF documentation: `ET = TT + K sin E`, `E = M + eB sin M`,
`M = M0 + M1 ET`. -/
def Solves (tt et : ℝ) : Prop :=
  ∃ M E : ℝ, M = 6.239996 + 1.99096871e-7 * et ∧ E = M + 1.671e-2 * Real.sin M ∧
    et = tt + 1.657e-3 * Real.sin E

theorem solves_iff (tt et : ℝ) : Solves tt et ↔ etNext tt et = et := by
  have c0 : naifM0 = 6.239996 := by norm_num [naifM0]
  have c1 : naifM1 = 1.99096871e-7 := by norm_num [naifM1]
  have c2 : naifEb = 1.671e-2 := by norm_num [naifEb]
  have c3 : naifK = 1.657e-3 := by norm_num [naifK]
  unfold Solves etNext
  rw [c0, c1, c2, c3]
  constructor
  · rintro ⟨M, E, hM, hE, h⟩
    rw [hE, hM] at h
    exact h.symm
  · intro h
    exact ⟨_, _, rfl, rfl, h.symm⟩

/-- The contraction factor: `K (1 + eB) M1` is below this. -/
noncomputable def q : ℝ := 4 / 10 ^ 10

theorem q_nonneg : 0 ≤ q := by norm_num [q]

theorem etNext_lipschitz (tt x y : ℝ) : |etNext tt x - etNext tt y| ≤ q * |x - y| := by
  unfold etNext
  dsimp only
  set a := naifM0 + naifM1 * x
  set b := naifM0 + naifM1 * y
  have hab : |a - b| = naifM1 * |x - y| := by
    have : a - b = naifM1 * (x - y) := by simp only [a, b]; ring
    rw [this, abs_mul, abs_of_pos (by norm_num [naifM1])]
  have h1 : |(a + naifEb * Real.sin a) - (b + naifEb * Real.sin b)| ≤ (1 + naifEb) * |a - b| := by
    have e : (a + naifEb * Real.sin a) - (b + naifEb * Real.sin b) =
        (a - b) + naifEb * (Real.sin a - Real.sin b) := by ring
    rw [e]
    refine le_trans (abs_add_le _ _) ?_
    rw [abs_mul, abs_of_pos (show 0 < naifEb by norm_num [naifEb])]
    have := Real.abs_sin_sub_sin_le a b
    have hp : 0 < naifEb := by norm_num [naifEb]
    nlinarith
  have h2 := Real.abs_sin_sub_sin_le (a + naifEb * Real.sin a) (b + naifEb * Real.sin b)
  have e : tt + naifK * Real.sin (a + naifEb * Real.sin a) -
      (tt + naifK * Real.sin (b + naifEb * Real.sin b)) =
      naifK * (Real.sin (a + naifEb * Real.sin a) - Real.sin (b + naifEb * Real.sin b)) := by ring
  rw [e, abs_mul, abs_of_pos (show 0 < naifK by norm_num [naifK])]
  have h3 : naifK * |Real.sin (a + naifEb * Real.sin a) - Real.sin (b + naifEb * Real.sin b)| ≤
      naifK * ((1 + naifEb) * (naifM1 * |x - y|)) := by
    apply mul_le_mul_of_nonneg_left _ (by norm_num [naifK])
    rw [← hab]
    exact le_trans h2 h1
  refine le_trans h3 ?_
  have : naifK * ((1 + naifEb) * (naifM1 * |x - y|)) = (naifK * (1 + naifEb) * naifM1) * |x - y| := by ring
  rw [this]
  apply mul_le_mul_of_nonneg_right _ (abs_nonneg _)
  norm_num [naifK, naifEb, naifM1, q]

/-- For every TT there is exactly one ET that solves the equation. -/
theorem et_exists_unique (tt : ℝ) : ∃! et, Solves tt et := by
  have hc : ContractingWith (Real.toNNReal q) (etNext tt) := by
    refine ⟨?_, LipschitzWith.of_dist_le_mul (fun x y => ?_)⟩
    · rw [Real.toNNReal_lt_one]; norm_num [q]
    · rw [Real.dist_eq, Real.dist_eq, Real.coe_toNNReal _ q_nonneg]; exact etNext_lipschitz tt x y
  refine ⟨ContractingWith.fixedPoint _ hc, (solves_iff _ _).mpr hc.fixedPoint_isFixedPt, ?_⟩
  intro y hy
  exact hc.fixedPoint_unique ((solves_iff _ _).mp hy)

theorem step_error {tt et e : ℝ} (he : etNext tt e = e) : |etNext tt et - e| ≤ q * |et - e| := by
  have := etNext_lipschitz tt et e
  rwa [he] at this

theorem loop_error {tt e : ℝ} (he : etNext tt e = e) :
    ∀ n et, |etLoop tt n et - e| ≤ max (1 / 10 ^ 21) (q ^ n * |et - e|)
  | 0, et => by simp [etLoop]
  | n + 1, et => by
    unfold etLoop
    dsimp only
    have hs := step_error (et := et) he
    split
    · rename_i hlt
      apply le_trans _ (le_max_left _ _)
      have : |et - e| ≤ |etNext tt et - et| + |etNext tt et - e| := by
        rw [abs_sub_comm (etNext tt et) et]
        exact abs_sub_le _ _ _
      have hq : q = 4 / 10 ^ 10 := rfl
      rw [hq] at hs
      norm_num at hlt hs ⊢
      linarith
    · refine le_trans (loop_error he n _) (max_le_max le_rfl ?_)
      rw [pow_succ, mul_assoc]
      exact mul_le_mul_of_nonneg_left hs (by norm_num [q])

theorem solution_near {tt e : ℝ} (he : etNext tt e = e) : |tt - e| ≤ naifK := by
  rw [abs_sub_comm]
  conv_lhs => rw [← he]
  unfold etNext
  dsimp only
  rw [add_sub_cancel_left, abs_mul, abs_of_pos (show 0 < naifK by norm_num [naifK])]
  have := Real.abs_sin_le_one (naifM0 + naifM1 * e + naifEb * Real.sin (naifM0 + naifM1 * e))
  have hk : 0 < naifK := by norm_num [naifK]
  nlinarith

/-- The loop returns the solution of the equation to within 1e-21 s, for every Julian Date. -/
theorem tt_to_et_accurate {jd et : ℝ} (h : Solves ((jd - 2451545) * 86400) et) :
    |jdTtToEt jd - et| ≤ 1 / 10 ^ 21 := by
  have he := (solves_iff _ _).mp h
  unfold jdTtToEt j2000
  dsimp only
  refine le_trans (loop_error he 5 _) (max_le le_rfl ?_)
  have hn := solution_near he
  have : q ^ 5 * |(jd - 2451545) * 86400 - et| ≤ q ^ 5 * naifK :=
    mul_le_mul_of_nonneg_left hn (by norm_num [q])
  refine le_trans this ?_
  norm_num [q, naifK]

/-- ET stays within 1.657 ms of TT (plus the loop error). -/
theorem tt_to_et_offset (jd : ℝ) : |jdTtToEt jd - (jd - 2451545) * 86400| ≤ 1.657e-3 + 1 / 10 ^ 21 := by
  obtain ⟨e, he, _⟩ := et_exists_unique ((jd - 2451545) * 86400)
  have h1 := tt_to_et_accurate he
  have h2 := solution_near ((solves_iff _ _).mp he)
  have h3 := abs_sub_le (jdTtToEt jd) e ((jd - 2451545) * 86400)
  rw [abs_sub_comm e] at h3
  have hk : naifK = 1.657e-3 := by norm_num [naifK]
  rw [hk] at h2
  linarith

/-- The exact solution is strictly increasing in TT: no two instants share an ephemeris time. -/
theorem et_strictly_increasing {t1 t2 e1 e2 : ℝ} (h1 : Solves t1 e1) (h2 : Solves t2 e2) (h : t1 < t2) :
    e1 < e2 := by
  have g1 := (solves_iff _ _).mp h1
  have g2 := (solves_iff _ _).mp h2
  by_contra hle
  rw [not_lt] at hle
  have hsh : etNext t1 e2 = etNext t2 e2 - (t2 - t1) := by unfold etNext; ring
  have hl := etNext_lipschitz t1 e1 e2
  rw [g1, hsh, g2, abs_of_nonneg (by linarith), abs_of_nonneg (by linarith)] at hl
  norm_num [q] at hl
  linarith

/-- Computed ephemeris times of instants more than a nanosecond of TT apart are in order. -/
theorem tt_to_et_monotone {a b : ℝ} (h : (a - 2451545) * 86400 + 1 / 10 ^ 9 ≤ (b - 2451545) * 86400) :
    jdTtToEt a < jdTtToEt b := by
  obtain ⟨e1, s1, _⟩ := et_exists_unique ((a - 2451545) * 86400)
  obtain ⟨e2, s2, _⟩ := et_exists_unique ((b - 2451545) * 86400)
  have a1 := abs_le.mp (tt_to_et_accurate s1)
  have a2 := abs_le.mp (tt_to_et_accurate s2)
  have g1 := (solves_iff _ _).mp s1
  have g2 := (solves_iff _ _).mp s2
  have hlt := et_strictly_increasing s1 s2 (by linarith)
  have hsh : etNext ((a - 2451545) * 86400) e2 =
      etNext ((b - 2451545) * 86400) e2 - ((b - 2451545) * 86400 - (a - 2451545) * 86400) := by
    unfold etNext; ring
  have hl := etNext_lipschitz ((a - 2451545) * 86400) e1 e2
  rw [g1, hsh, g2, abs_of_neg (show e1 - e2 < 0 by linarith)] at hl
  have hl := (abs_le.mp hl).2
  norm_num [q] at hl a1 a2 h
  linarith

/-- One day later. -/
example : jdTtToEt 2451545 < jdTtToEt 2451546 := tt_to_et_monotone (by norm_num)

end Verif.Interp.Time
