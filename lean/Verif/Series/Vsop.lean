import Verif.Series.Model
import Mathlib.Analysis.SpecialFunctions.Trigonometric.Deriv
import Mathlib.Algebra.Order.BigOperators.Group.Finset
import Mathlib.Algebra.BigOperators.Ring.Finset
import Mathlib.Algebra.Order.BigOperators.Group.List
import Mathlib.Tactic.Linarith
import Mathlib.Tactic.Ring
import Mathlib.Tactic.NormNum
import Mathlib.Tactic.Positivity

/-!
Claim C148: VSOP87.
-/
namespace Verif.Series.Props
open Verif.Series Finset

/-- `Σ A cos(B + C T)`. -/
noncomputable def wave (ms : List Term) (t : ℝ) : ℝ := (ms.map (fun m => m.a * Real.cos (m.b + m.c * t))).sum

/-- The series of the theory: `Σ_k T^k Σ_j A cos(B + C T)`. -/
noncomputable def theory (series : List (List Term)) (t : ℝ) : ℝ := ∑ k ∈ range series.length, t ^ k * wave (series.getD k []) t

/-- The sum of the amplitudes of a power. -/
noncomputable def amplitude (ms : List Term) : ℝ := (ms.map (fun m => |m.a|)).sum

/-- The sum of the amplitudes of the rates of a power. -/
noncomputable def rates (ms : List Term) : ℝ := (ms.map (fun m => |m.a * m.c|)).sum

/-- The lanes are within `ε` of the functions they stand for. -/
structure Close (w : Wide) (ε : ℝ) : Prop where
  sin : ∀ x, |w.sin x - Real.sin x| ≤ ε
  cos : ∀ x, |w.cos x - Real.cos x| ≤ ε

theorem Close.nonneg {w : Wide} {ε : ℝ} (h : Close w ε) : 0 ≤ ε := le_trans (abs_nonneg _) (h.sin 0)

noncomputable def slope (ms : List Term) (t : ℝ) : ℝ := (ms.map (fun m => -(m.a * m.c * Real.sin (m.b + m.c * t)))).sum

theorem wave_cons (m : Term) (ms : List Term) (t : ℝ) : wave (m :: ms) t = m.a * Real.cos (m.b + m.c * t) + wave ms t := by
  unfold wave; rw [List.map_cons, List.sum_cons]

theorem slope_cons (m : Term) (ms : List Term) (t : ℝ) : slope (m :: ms) t = -(m.a * m.c * Real.sin (m.b + m.c * t)) + slope ms t := by
  unfold slope; rw [List.map_cons, List.sum_cons]

theorem amplitude_cons (m : Term) (ms : List Term) : amplitude (m :: ms) = |m.a| + amplitude ms := by
  unfold amplitude; rw [List.map_cons, List.sum_cons]

theorem rates_cons (m : Term) (ms : List Term) : rates (m :: ms) = |m.a * m.c| + rates ms := by
  unfold rates; rw [List.map_cons, List.sum_cons]

theorem amplitude_nonneg (ms : List Term) : 0 ≤ amplitude ms := by
  unfold amplitude
  apply List.sum_nonneg
  intro x hx
  obtain ⟨m, _, rfl⟩ := List.mem_map.mp hx
  exact abs_nonneg _

theorem rates_nonneg (ms : List Term) : 0 ≤ rates ms := by
  unfold rates
  apply List.sum_nonneg
  intro x hx
  obtain ⟨m, _, rfl⟩ := List.mem_map.mp hx
  exact abs_nonneg _

theorem tailBoth_eq (t : ℝ) (ms : List Term) : ∀ acc : ℝ × ℝ, tailBoth t ms acc = (acc.1 + wave ms t, acc.2 + slope ms t) := by
  induction ms with
  | nil => intro acc; simp [tailBoth, wave, slope]
  | cons m ms ih =>
    intro acc
    obtain ⟨v, d⟩ := acc
    rw [tailBoth, ih, wave_cons, slope_cons]
    unfold arg
    rw [show m.c * t + m.b = m.b + m.c * t by ring]
    refine Prod.ext ?_ ?_ <;> dsimp only <;> ring

theorem off {a w c ε : ℝ} (h : |w - c| ≤ ε) : |a * w - a * c| ≤ ε * |a| := by
  rw [← mul_sub, abs_mul, mul_comm]
  exact mul_le_mul_of_nonneg_right h (abs_nonneg _)

theorem add4 {a b c d e a' b' c' d' e' p q r s u : ℝ} (ha : |a - a'| ≤ p) (hb : |b - b'| ≤ q) (hc : |c - c'| ≤ r) (hd : |d - d'| ≤ s) (he : |e - e'| ≤ u) :
    |a + b + c + d + e - (a' + b' + c' + d' + e')| ≤ p + q + r + s + u := by
  rw [abs_le] at *
  constructor <;> linarith [ha.1, ha.2, hb.1, hb.2, hc.1, hc.2, hd.1, hd.2, he.1, he.2]

theorem serieBoth_close {w : Wide} {ε : ℝ} (hw : Close w ε) (t : ℝ) : ∀ (n : Nat) (ms : List Term), ms.length ≤ n → ∀ acc : ℝ × ℝ,
    |(serieBoth w t ms acc).1 - (acc.1 + wave ms t)| ≤ ε * amplitude ms ∧ |(serieBoth w t ms acc).2 - (acc.2 + slope ms t)| ≤ ε * rates ms := by
  intro n
  induction n with
  | zero =>
    intro ms h acc
    have : ms = [] := List.length_eq_zero_iff.mp (by omega)
    subst this
    rw [serieBoth, tailBoth_eq]
    · simp [amplitude, rates]
    all_goals simp
  | succ n ih =>
    intro ms h acc
    have short : ∀ l : List Term, (∀ m0 m1 m2 m3 rest, l ≠ m0 :: m1 :: m2 :: m3 :: rest) →
        |(serieBoth w t l acc).1 - (acc.1 + wave l t)| ≤ ε * amplitude l ∧ |(serieBoth w t l acc).2 - (acc.2 + slope l t)| ≤ ε * rates l := by
      intro l hl
      rw [serieBoth, tailBoth_eq]
      · rw [sub_self, sub_self, abs_zero]
        exact ⟨mul_nonneg hw.nonneg (amplitude_nonneg l), mul_nonneg hw.nonneg (rates_nonneg l)⟩
      · intro m0 m1 m2 m3 rest v d e
        exact absurd e (hl _ _ _ _ _)
    match ms with
    | [] => exact short _ (by simp)
    | [_] => exact short _ (by simp)
    | [_, _] => exact short _ (by simp)
    | [_, _, _] => exact short _ (by simp)
    | m0 :: m1 :: m2 :: m3 :: rest =>
      obtain ⟨v, d⟩ := acc
      rw [serieBoth]
      have := ih rest (by simp at h; omega) (v + m0.a * w.cos (arg m0 t) + m1.a * w.cos (arg m1 t) + m2.a * w.cos (arg m2 t) + m3.a * w.cos (arg m3 t),
       d - m0.a * m0.c * w.sin (arg m0 t) - m1.a * m1.c * w.sin (arg m1 t) - m2.a * m2.c * w.sin (arg m2 t) - m3.a * m3.c * w.sin (arg m3 t))
      obtain ⟨i1, i2⟩ := this
      have ea : ∀ m : Term, m.b + m.c * t = arg m t := fun m => by unfold arg; ring
      simp only [wave_cons, slope_cons, amplitude_cons, rates_cons, ea]
      have c : ∀ m : Term, |m.a * w.cos (arg m t) - m.a * Real.cos (arg m t)| ≤ ε * |m.a| := fun m => off (hw.cos _)
      have s : ∀ m : Term, |m.a * m.c * w.sin (arg m t) - m.a * m.c * Real.sin (arg m t)| ≤ ε * |m.a * m.c| := fun m => off (hw.sin _)
      dsimp only at i1 i2 ⊢
      constructor
      · refine le_trans (le_of_eq ?_) (le_trans (add4 i1 (c m0) (c m1) (c m2) (c m3)) (le_of_eq ?_))
        · congr 1; ring
        · ring
      · have neg : ∀ m : Term, |-(m.a * m.c * w.sin (arg m t)) - -(m.a * m.c * Real.sin (arg m t))| ≤ ε * |m.a * m.c| := by
          intro m
          rw [← abs_neg]
          refine le_trans (le_of_eq ?_) (s m)
          congr 1; ring
        refine le_trans (le_of_eq ?_) (le_trans (add4 i2 (neg m0) (neg m1) (neg m2) (neg m3)) (le_of_eq ?_))
        · congr 1; ring
        · ring

theorem tailBoth_fst (t : ℝ) (ms : List Term) : ∀ acc : ℝ × ℝ, (tailBoth t ms acc).1 = tailValue t ms acc.1 := by
  induction ms with
  | nil => intro acc; rfl
  | cons m ms ih => intro acc; obtain ⟨v, d⟩ := acc; rw [tailBoth, tailValue, ih]

theorem serieBoth_fst (w : Wide) (t : ℝ) : ∀ (n : Nat) (ms : List Term), ms.length ≤ n → ∀ acc : ℝ × ℝ, (serieBoth w t ms acc).1 = serieValue w t ms acc.1 := by
  intro n
  induction n with
  | zero =>
    intro ms h acc
    have : ms = [] := List.length_eq_zero_iff.mp (by omega)
    subst this
    rw [serieBoth, serieValue, tailBoth_fst] <;> simp
  | succ n ih =>
    intro ms h acc
    obtain ⟨v, d⟩ := acc
    match ms with
    | [] => rw [serieBoth, serieValue, tailBoth_fst] <;> simp
    | [_] => rw [serieBoth, serieValue, tailBoth_fst] <;> simp
    | [_, _] => rw [serieBoth, serieValue, tailBoth_fst] <;> simp
    | [_, _, _] => rw [serieBoth, serieValue, tailBoth_fst] <;> simp
    | m0 :: m1 :: m2 :: m3 :: rest =>
      rw [serieBoth, serieValue, ih rest (by simp at h; omega)]

/-! ### The loops over the powers -/

theorem valueLoop_eq (w : Wide) (t : ℝ) (series : List (List Term)) : ∀ pow v, valueLoop w t series pow v =
    v + ∑ k ∈ range series.length, pow * t ^ k * serieValue w t (series.getD k []) 0 := by
  induction series with
  | nil => intro pow v; simp [valueLoop]
  | cons ms rest ih =>
    intro pow v
    rw [valueLoop, ih, List.length_cons, sum_range_succ']
    simp only [List.getD_cons_succ, List.getD_cons_zero, pow_zero, mul_one]
    have : ∀ k, pow * t ^ (k + 1) * serieValue w t (rest.getD k []) 0 = pow * t * t ^ k * serieValue w t (rest.getD k []) 0 := fun k => by ring
    simp only [this]
    ring

theorem derivLoop_eq (w : Wide) (t : ℝ) (series : List (List Term)) : ∀ (k : Nat) (d : ℝ), derivLoop w t series k (t ^ k) (k * t ^ (k - 1)) d =
    d + ∑ j ∈ range series.length, (t ^ (k + j) * (serieBoth w t (series.getD j []) (0, 0)).2 +
      ((k + j : ℕ) : ℝ) * t ^ (k + j - 1) * (serieBoth w t (series.getD j []) (0, 0)).1) := by
  induction series with
  | nil => intro k d; simp [derivLoop]
  | cons ms rest ih =>
    intro k d
    rw [derivLoop]
    have h1 : t ^ k * t = t ^ (k + 1) := (pow_succ t k).symm
    have h2 : ((k : ℝ) + 1) * t ^ k = ((k + 1 : ℕ) : ℝ) * t ^ (k + 1 - 1) := by rw [Nat.add_sub_cancel]; push_cast; ring
    rw [h1, h2, ih, List.length_cons, sum_range_succ']
    simp only [List.getD_cons_succ, List.getD_cons_zero, add_zero]
    have : ∀ j, k + 1 + j = k + (j + 1) := fun j => by omega
    simp only [this]
    ring

theorem bothLoop_eq (w : Wide) (t : ℝ) (series : List (List Term)) : ∀ (k : Nat) (pow powDer : ℝ) (acc : ℝ × ℝ),
    bothLoop w t series k pow powDer acc = (valueLoop w t series pow acc.1, derivLoop w t series k pow powDer acc.2) := by
  induction series with
  | nil => intro k p q acc; rfl
  | cons ms rest ih =>
    intro k p q acc
    obtain ⟨v, d⟩ := acc
    rw [bothLoop, ih, valueLoop, derivLoop, serieBoth_fst w t _ _ le_rfl]

/-- C148. The single pass gives exactly the value and the derivative of the separate functions. -/
theorem both_agrees (w : Wide) (series : List (List Term)) (t : ℝ) : coordBoth w series t = (coordValue w series t, coordDeriv w series t) := by
  unfold coordBoth coordValue coordDeriv
  rw [bothLoop_eq]

/-- C148. Position and velocity in one call are those of the two calls. -/
theorem position_velocity_agrees (w : Wide) (tdb : ℝ → ℝ) (s : Tables) (jd : ℝ) : positionVelocity w tdb s jd = (position w tdb s jd, velocity w tdb s jd) := by
  unfold positionVelocity position velocity
  simp only [both_agrees]

theorem sum_close {n : Nat} {f g e : Nat → ℝ} (h : ∀ k ∈ range n, |f k - g k| ≤ e k) : |∑ k ∈ range n, f k - ∑ k ∈ range n, g k| ≤ ∑ k ∈ range n, e k := by
  rw [← sum_sub_distrib]
  exact (abs_sum_le_sum_abs _ _).trans (sum_le_sum h)

/-- C148. The value is that of the series of the theory, to within the error of the lanes times the sum of the amplitudes. -/
theorem value_close {w : Wide} {ε : ℝ} (hw : Close w ε) (series : List (List Term)) (t : ℝ) :
    |coordValue w series t - theory series t| ≤ ε * ∑ k ∈ range series.length, |t| ^ k * amplitude (series.getD k []) := by
  unfold coordValue theory
  rw [valueLoop_eq, zero_add, mul_sum]
  apply sum_close
  intro k _
  rw [one_mul, ← mul_sub, abs_mul, abs_pow, show ε * (|t| ^ k * amplitude (series.getD k [])) = |t| ^ k * (ε * amplitude (series.getD k [])) by ring]
  apply mul_le_mul_of_nonneg_left _ (by positivity)
  have := (serieBoth_close hw t _ (series.getD k []) le_rfl (0, 0)).1
  rw [serieBoth_fst w t _ _ le_rfl, zero_add] at this
  exact this

/-- With exact lanes the value is the series of the theory. -/
theorem value_exact (series : List (List Term)) (t : ℝ) : coordValue ⟨Real.sin, Real.cos⟩ series t = theory series t := by
  have := value_close (w := ⟨Real.sin, Real.cos⟩) (ε := 0) ⟨by simp, by simp⟩ series t
  rw [zero_mul] at this
  exact sub_eq_zero.mp (abs_nonpos_iff.mp this)

/-! ### The derivative -/

noncomputable def theoryRate (series : List (List Term)) (t : ℝ) : ℝ :=
  ∑ k ∈ range series.length, (t ^ k * slope (series.getD k []) t + (k : ℝ) * t ^ (k - 1) * wave (series.getD k []) t)

theorem wave_deriv (ms : List Term) (t : ℝ) : HasDerivAt (wave ms) (slope ms t) t := by
  induction ms with
  | nil =>
    have : wave [] = fun _ => (0 : ℝ) := by funext x; simp [wave]
    rw [this]
    simpa [slope] using hasDerivAt_const t (0 : ℝ)
  | cons m ms ih =>
    have e : wave (m :: ms) = fun x => m.a * Real.cos (m.b + m.c * x) + wave ms x := by funext x; exact wave_cons m ms x
    rw [e, slope_cons]
    apply HasDerivAt.add _ ih
    have h1 : HasDerivAt (fun x => m.b + m.c * x) m.c t := by
      have := ((hasDerivAt_id t).const_mul m.c).const_add m.b
      simpa using this
    exact ((h1.cos).const_mul m.a).congr_deriv (by ring)

theorem theory_deriv (series : List (List Term)) (t : ℝ) : HasDerivAt (theory series) (theoryRate series t) t := by
  have e : theory series = fun x => ∑ k ∈ range series.length, x ^ k * wave (series.getD k []) x := rfl
  rw [e]
  unfold theoryRate
  apply HasDerivAt.fun_sum
  intro k _
  exact ((hasDerivAt_pow k t).fun_mul (wave_deriv (series.getD k []) t)).congr_deriv (by ring)

/-- C148. The velocity is the derivative of the position of the theory with respect to days of TDB, to within the error of the lanes times the sum of the amplitudes
of the rates. -/
theorem velocity_close {w : Wide} {ε : ℝ} (hw : Close w ε) (series : List (List Term)) (day : ℝ) :
    ∃ rate, HasDerivAt (fun d => theory series ((d - 2451545) / 365250)) rate day ∧
      |coordDeriv w series ((day - 2451545) / 365250) - rate| ≤
        ε * (∑ k ∈ range series.length, (|(day - 2451545) / 365250| ^ k * rates (series.getD k []) +
          k * |(day - 2451545) / 365250| ^ (k - 1) * amplitude (series.getD k []))) / 365250 := by
  set t := (day - 2451545) / 365250 with ht
  refine ⟨theoryRate series t * (1 / 365250), ?_, ?_⟩
  · have h1 : HasDerivAt (fun d : ℝ => (d - 2451545) / 365250) (1 / 365250) day := by
      have := ((hasDerivAt_id day).sub_const 2451545).div_const 365250
      simpa using this
    have h2 : HasDerivAt (theory series) (theoryRate series t) ((fun d : ℝ => (d - 2451545) / 365250) day) := theory_deriv series t
    exact h2.comp day h1
  · unfold coordDeriv dtDt
    have hl := derivLoop_eq w t series 0 0
    rw [pow_zero, Nat.cast_zero, zero_mul, zero_add] at hl
    rw [hl]
    simp only [zero_add]
    rw [show (1 : ℝ) / (36525 * 10) = 1 / 365250 by norm_num, ← sub_mul, abs_mul, abs_of_pos (by norm_num : (0 : ℝ) < 1 / 365250), mul_one_div]
    apply div_le_div_of_nonneg_right _ (by norm_num)
    unfold theoryRate
    rw [mul_sum]
    apply sum_close
    intro k _
    obtain ⟨c1, c2⟩ := serieBoth_close hw t _ (series.getD k []) le_rfl (0, 0)
    rw [zero_add] at c1 c2
    set S := serieBoth w t (series.getD k []) (0, 0)
    have e : t ^ k * S.2 + (k : ℝ) * t ^ (k - 1) * S.1 - (t ^ k * slope (series.getD k []) t + (k : ℝ) * t ^ (k - 1) * wave (series.getD k []) t) =
        t ^ k * (S.2 - slope (series.getD k []) t) + (k : ℝ) * t ^ (k - 1) * (S.1 - wave (series.getD k []) t) := by ring
    rw [e]
    refine (abs_add_le _ _).trans ?_
    rw [abs_mul, abs_mul, abs_mul, abs_pow, abs_pow, Nat.abs_cast]
    have p1 := mul_le_mul_of_nonneg_left c2 (by positivity : 0 ≤ |t| ^ k)
    have p2 := mul_le_mul_of_nonneg_left c1 (by positivity : 0 ≤ (k : ℝ) * |t| ^ (k - 1))
    refine (add_le_add p1 p2).trans (le_of_eq ?_)
    ring

/-- C148. With exact lanes the velocity function gives the derivative of the position function along days of TDB, for each coordinate. -/
theorem velocity_exact (tdb : ℝ → ℝ) (s : Tables) (jd : ℝ) :
    HasDerivAt (fun d => (position ⟨Real.sin, Real.cos⟩ id s d).1) (velocity ⟨Real.sin, Real.cos⟩ tdb s jd).1 (tdb jd) ∧
    HasDerivAt (fun d => (position ⟨Real.sin, Real.cos⟩ id s d).2.1) (velocity ⟨Real.sin, Real.cos⟩ tdb s jd).2.1 (tdb jd) ∧
    HasDerivAt (fun d => (position ⟨Real.sin, Real.cos⟩ id s d).2.2) (velocity ⟨Real.sin, Real.cos⟩ tdb s jd).2.2 (tdb jd) := by
  have key : ∀ series : List (List Term), HasDerivAt (fun d => coordValue ⟨Real.sin, Real.cos⟩ series (millennia id d))
      (coordDeriv ⟨Real.sin, Real.cos⟩ series (millennia tdb jd)) (tdb jd) := by
    intro series
    obtain ⟨rate, h1, h2⟩ := velocity_close (w := ⟨Real.sin, Real.cos⟩) (ε := 0) ⟨by simp, by simp⟩ series (tdb jd)
    rw [zero_mul, zero_div] at h2
    have hm : ∀ d : ℝ, (d - 2451545) / 36525 / 10 = (d - 2451545) / 365250 := fun d => by rw [div_div]; norm_num
    have e : (fun d => coordValue ⟨Real.sin, Real.cos⟩ series (millennia id d)) = fun d => theory series ((d - 2451545) / 365250) := by
      funext d
      rw [value_exact]
      unfold millennia
      rw [id, hm]
    rw [e]
    unfold millennia
    rw [hm, sub_eq_zero.mp (abs_nonpos_iff.mp h2)]
    exact h1
  exact ⟨key s.x, key s.y, key s.z⟩

/-- C148. The position at a date is the theory at the millennia of TDB since J2000. -/
theorem position_exact (tdb : ℝ → ℝ) (s : Tables) (jd : ℝ) : position ⟨Real.sin, Real.cos⟩ tdb s jd =
    (theory s.x ((tdb jd - 2451545) / 365250), theory s.y ((tdb jd - 2451545) / 365250), theory s.z ((tdb jd - 2451545) / 365250)) := by
  unfold position millennia
  simp only [value_exact, div_div]
  norm_num

/-- C148, finding. `Moon::vsop87a` is the place of the barycentre of the Earth and the Moon: whatever the tables of the Earth and the Moon's motion, it is a function of
the table `EMB` alone. -/
theorem moon_is_barycentre (w : Wide) (tdb : ℝ → ℝ) (data data' : Table → Tables) (h : data .emb = data' .emb) (jd : ℝ) :
    vsop87a w tdb data .moon jd = position w tdb (data .emb) jd ∧ vsop87a w tdb data .moon jd = vsop87a w tdb data' .moon jd :=
  ⟨rfl, by unfold vsop87a tableOf; rw [h]⟩

/-- C148. The other bodies have tables of their own. -/
theorem tables_distinct {b c : Body} (h : tableOf b = tableOf c) : b = c := by
  cases b <;> cases c <;> first | rfl | cases h

/-- Five terms of one power, one of the next. -/
example : coordValue ⟨Real.sin, Real.cos⟩ [[⟨1, 0, 0⟩, ⟨2, 0, 0⟩, ⟨3, 0, 0⟩, ⟨4, 0, 0⟩, ⟨5, 0, 0⟩], [⟨7, 0, 0⟩]] 2 = 29 := by
  rw [value_exact]
  norm_num [theory, wave, sum_range_succ]

end Verif.Series.Props
