import Verif.Stellar.Predict
import Verif.Apparent.Props

/-! Properties of the analytical star search: thresholds and predictions. -/
namespace Verif.Stellar.Props

open Spec
open Verif.Sky (toRad toDeg)

/-! ### Threshold hour angle -/

theorem cos_lt_cos_iff {x y : ℝ} (hx : |x| ≤ Real.pi) (hy : 0 ≤ y) (hy' : y ≤ Real.pi) :
    Real.cos y < Real.cos x ↔ |x| < y := by
  rw [← Real.cos_abs x]
  exact Real.strictAntiOn_cos.lt_iff_gt ⟨hy, hy'⟩ ⟨abs_nonneg x, hx⟩

theorem cos_eq_cos_iff' {x y : ℝ} (hx : |x| ≤ Real.pi) (hy : 0 ≤ y) (hy' : y ≤ Real.pi) :
    Real.cos x = Real.cos y ↔ |x| = y := by
  rw [← Real.cos_abs x]
  exact Real.injOn_cos.eq_iff ⟨abs_nonneg x, hx⟩ ⟨hy, hy'⟩

/-- C189: for a star and a site not at a pole, the verdict is exactly right. "Always above": at no
hour angle is the altitude below the threshold; "never above": at no hour angle is it above; and
otherwise the returned hour angle separates: for hour angles in `[-π, π]` the star is above exactly
inside `(-h0, h0)` and at the threshold exactly at `±h0`. -/
theorem threshold_exact (p : Params) (dec lat thr : ℝ)
    (ha : p.a = Real.sin dec * Real.sin lat) (hb : p.b = Real.cos dec * Real.cos lat)
    (hpole : 1 / 10 ^ 15 ≤ Real.cos dec * Real.cos lat)
    (hthr : -(Real.pi / 2) ≤ thr) (hthr' : thr ≤ Real.pi / 2) :
    (thresholdHa p thr = .alwaysAbove ↔ ∀ H, thr ≤ Real.arcsin (sinAlt dec lat H)) ∧
    (thresholdHa p thr = .neverAbove ↔ ∀ H, Real.arcsin (sinAlt dec lat H) ≤ thr) ∧
    (∀ h0, thresholdHa p thr = .crossings h0 → 0 < h0 ∧ h0 < Real.pi ∧ ∀ H, |H| ≤ Real.pi →
      (thr < Real.arcsin (sinAlt dec lat H) ↔ |H| < h0) ∧
      (Real.arcsin (sinAlt dec lat H) = thr ↔ |H| = h0)) := by
  have hbp : 0 < Real.cos dec * Real.cos lat := lt_of_lt_of_le (by norm_num) hpole
  have hs : ∀ H, sinAlt dec lat H ∈ Set.Icc (-1 : ℝ) 1 := by
    intro H
    have h1 := Real.cos_sub dec lat
    have h2 := Real.cos_add dec lat
    have h3 := Real.cos_le_one H
    have h4 := Real.neg_one_le_cos H
    have h5 := Real.cos_le_one (dec - lat)
    have h6 := Real.neg_one_le_cos (dec + lat)
    have h7 := Real.neg_one_le_cos (dec - lat)
    have h8 := Real.cos_le_one (dec + lat)
    unfold sinAlt
    constructor <;> nlinarith
  have hle : ∀ H, (thr ≤ Real.arcsin (sinAlt dec lat H) ↔ Real.sin thr ≤ sinAlt dec lat H) := by
    intro H
    exact Real.le_arcsin_iff_sin_le ⟨hthr, hthr'⟩ (hs H)
  have hge : ∀ H, (Real.arcsin (sinAlt dec lat H) ≤ thr ↔ sinAlt dec lat H ≤ Real.sin thr) := by
    intro H
    exact Real.arcsin_le_iff_le_sin (hs H) ⟨hthr, hthr'⟩
  have hdeg : ¬ |p.b| < degenerateEps := by
    rw [hb, abs_of_pos hbp, not_lt]
    exact hpole
  unfold thresholdHa
  simp only [if_neg hdeg]
  simp only [hle, hge]
  rw [ha, hb]
  have key : ∀ H, sinAlt dec lat H - Real.sin thr = (Real.cos dec * Real.cos lat) *
      (Real.cos H - (Real.sin thr - Real.sin dec * Real.sin lat) / (Real.cos dec * Real.cos lat)) := by
    intro H
    unfold sinAlt
    rw [mul_sub, mul_div_cancel₀ _ hbp.ne']
    ring
  generalize Real.cos dec * Real.cos lat = B at *
  generalize hc : (Real.sin thr - Real.sin dec * Real.sin lat) / B = c at *
  have hupper : (∀ H, Real.sin thr ≤ sinAlt dec lat H) ↔ c ≤ -1 := by
    constructor
    · intro h
      have h1 := key Real.pi
      have h2 := h Real.pi
      rw [Real.cos_pi] at h1
      by_contra hcc
      nlinarith
    · intro h H
      have h1 := key H
      have h2 := Real.neg_one_le_cos H
      nlinarith
  have hlower : (∀ H, sinAlt dec lat H ≤ Real.sin thr) ↔ 1 ≤ c := by
    constructor
    · intro h
      have h1 := key 0
      have h2 := h 0
      rw [Real.cos_zero] at h1
      by_contra hcc
      nlinarith
    · intro h H
      have h1 := key H
      have h2 := Real.cos_le_one H
      nlinarith
  rw [hupper, hlower]
  refine ⟨?_, ?_, ?_⟩
  · by_cases h : c ≤ -1
    · simp [h]
    · simp only [h, if_false, iff_false]; split <;> simp
  · by_cases h : c ≤ -1
    · simp only [h, if_true]
      constructor
      · intro h'; cases h'
      · intro h'; linarith
    · by_cases h' : 1 ≤ c <;> simp [h, h']
  · intro h0 h
    by_cases h1 : c ≤ -1
    · simp [h1] at h
    by_cases h2 : 1 ≤ c
    · simp [h1, h2] at h
    simp only [h1, if_false, ge_iff_le, h2, Threshold.crossings.injEq] at h
    subst h
    push Not at h1 h2
    have hcos : Real.cos (Real.arccos c) = c := Real.cos_arccos h1.le h2.le
    refine ⟨Real.arccos_pos.mpr h2, ?_, ?_⟩
    · rcases (Real.arccos_le_pi c).lt_or_eq with h | h
      · exact h
      · have := Real.arccos_eq_pi.mp h; linarith
    · intro H hH
      rw [← cos_lt_cos_iff hH (Real.arccos_nonneg c) (Real.arccos_le_pi c),
        ← cos_eq_cos_iff' hH (Real.arccos_nonneg c) (Real.arccos_le_pi c), hcos]
      have h3 := key H
      have h4 : thr < Real.arcsin (sinAlt dec lat H) ↔ Real.sin thr < sinAlt dec lat H := by
        rw [← not_le, hge, not_le]
      rw [h4]
      constructor
      · constructor
        · intro h; by_contra hh; nlinarith
        · intro h; nlinarith
      · rw [le_antisymm_iff, hge, hle]
        constructor
        · rintro ⟨h5, h6⟩
          have : B * (Real.cos H - c) = 0 := by linarith
          rcases mul_eq_zero.mp this with h | h
          · linarith
          · linarith
        · intro h
          rw [h, sub_self, mul_zero] at h3
          constructor <;> linarith

/-- C189, at a pole: the altitude does not move, and the verdict is that of the fixed altitude. -/
theorem threshold_pole (p : Params) (dec lat thr : ℝ)
    (ha : p.a = Real.sin dec * Real.sin lat) (hb : p.b = Real.cos dec * Real.cos lat)
    (hpole : Real.cos dec * Real.cos lat = 0) :
    (thresholdHa p thr = .alwaysAbove ↔ ∀ H, Real.sin thr < sinAlt dec lat H) ∧
    (thresholdHa p thr = .neverAbove ↔ ∀ H, sinAlt dec lat H ≤ Real.sin thr) := by
  have hd : |p.b| < degenerateEps := by
    rw [hb, hpole]; unfold degenerateEps; norm_num
  have hs : ∀ H, sinAlt dec lat H = p.a := by
    intro H; unfold sinAlt; rw [hpole, ha]; ring
  unfold thresholdHa
  simp only [if_pos hd, hs, forall_const]
  by_cases h : p.a > Real.sin thr
  · simp only [if_pos h, reduceCtorEq, false_iff, not_le]
    exact ⟨⟨fun _ => h, fun _ => trivial⟩, h⟩
  · simp only [if_neg h, reduceCtorEq, false_iff]
    exact ⟨h, ⟨fun _ => not_lt.mp h, fun _ => trivial⟩⟩

/-- A star at 30° declination seen from latitude 45°, at the horizon: it rises and sets. -/
example : ∃ h0, thresholdHa ⟨Real.sin (Real.pi / 6) * Real.sin (Real.pi / 4),
    Real.cos (Real.pi / 6) * Real.cos (Real.pi / 4), 0, 0⟩ 0 = .crossings h0 := by
  have h2 : (0 : ℝ) < Real.sqrt 2 := by positivity
  have h3 : (0 : ℝ) < Real.sqrt 3 := by positivity
  have h4 : (1 : ℝ) < Real.sqrt 3 := by
    rw [Real.lt_sqrt (by norm_num)]; norm_num
  have h5 : (1 : ℝ) < Real.sqrt 2 := by
    rw [Real.lt_sqrt (by norm_num)]; norm_num
  refine ⟨Real.arccos ((0 - 1 / 2 * (Real.sqrt 2 / 2)) / (Real.sqrt 3 / 2 * (Real.sqrt 2 / 2))), ?_⟩
  unfold thresholdHa
  simp only [Real.sin_pi_div_six, Real.sin_pi_div_four, Real.cos_pi_div_six, Real.cos_pi_div_four,
    Real.sin_zero]
  have hb : 1 / 4 ≤ Real.sqrt 3 / 2 * (Real.sqrt 2 / 2) := by nlinarith
  have hc : (0 - 1 / 2 * (Real.sqrt 2 / 2)) / (Real.sqrt 3 / 2 * (Real.sqrt 2 / 2)) = -(1 / Real.sqrt 3) := by
    field_simp
    ring
  have h6 : 1 / Real.sqrt 3 < 1 := by rw [div_lt_one h3]; exact h4
  have h7 : 0 < 1 / Real.sqrt 3 := by positivity
  rw [if_neg, hc, if_neg (by linarith), if_neg (by simp only [ge_iff_le]; linarith)]
  rw [abs_of_pos (by linarith), not_lt]
  unfold degenerateEps
  linarith [show (1 : ℝ) / 10 ^ 15 ≤ 1 / 4 by norm_num]

/-! ### Parameters -/

/-- C189, parameters: with the matrix of the epoch, the sinusoid built from the catalogue place gives
the altitude which the full evaluation gives at that epoch. -/
theorem params_altitude {npb : Matrix (Fin 3) (Fin 3) ℝ} (h : Apparent.Keeps npb)
    (gast : ℝ → ℝ) (t lat lon ra dec : ℝ) :
    let p := fromJ2000 npb ra dec lat lon
    Real.arcsin (p.a + p.b * Real.cos (toRad (hourAngle gast p t))) =
      Apparent.starAltitude npb (gast t) (toRad lat) (toRad lon) (toRad ra) (toRad dec) .apparent := by
  have hu := Apparent.ofDate_unit h .apparent (toRad ra) (toRad dec)
  rw [Apparent.frame_altitude h]
  have he : Apparent.ofDate npb .apparent (toRad ra) (toRad dec) = npb.mulVec
      ![Real.cos (toRad dec) * Real.cos (toRad ra), Real.cos (toRad dec) * Real.sin (toRad ra),
        Real.sin (toRad dec)] := by
    unfold Apparent.ofDate
    rw [if_neg (by decide)]
    rfl
  rw [he] at hu ⊢
  unfold fromJ2000 hourAngle
  simp only
  generalize npb.mulVec _ = v at *
  have hrad : ∀ x, toRad (toDeg x) = x := by
    intro x
    have := Real.pi_ne_zero
    unfold toRad toDeg
    field_simp
  simp only [hrad]
  have h2 : -1 ≤ v 2 ∧ v 2 ≤ 1 := by constructor <;> nlinarith [sq_nonneg (v 0), sq_nonneg (v 1)]
  obtain ⟨p1, p2⟩ := Apparent.atan2_polar (v 0) (v 1)
  have hz := (Apparent.hour_angle (lat := toRad lat) (lst := gast t + toRad lon) p1 p2
    (Real.sin_arcsin h2.1 h2.2) (by rw [Real.cos_arcsin, Apparent.rxy_eq hu])).zenith
  rw [← hz, Apparent.cos_wrap]
  rfl

/-! ### Predictions -/

/-- C190: for a star turning uniformly the predictions are exactly the instants of the window at which
its hour angle is `-h0` (rising, +1) or `h0` (setting, -1), each listed once, in order of time. An
occurrence up to 1e-12 day after the end counts as the end. -/
theorem predict_exact {fuel : Nat} {sid ha start stop h0 : ℝ} (hs : 1 / 10 ^ 12 < sid)
    {l : List (ℝ × Int)} (h : predictCrossings fuel sid ha start stop h0 = some l) :
    (∀ t d, (t, d) ∈ l ↔ ∃ t', start ≤ t' ∧ t' ≤ stop + 1 / 10 ^ 12 ∧ t = min t' stop ∧
      ((d = 1 ∧ SameAngle (turning ha start sid t') (-(h0 * (180 / Real.pi)))) ∨
       (d = -1 ∧ SameAngle (turning ha start sid t') (h0 * (180 / Real.pi))))) ∧
    l.Nodup ∧ l.Pairwise (fun x y => x.1 ≤ y.1) := by
  have hs0 : 0 < sid := lt_trans (by norm_num) hs
  unfold predictCrossings at h
  simp only at h
  split at h
  · rename_i r s hr hs'
    cases h
    have hperm := List.mergeSort_perm (r.map (fun t => (t, (1 : Int))) ++ s.map (fun t => (t, (-1 : Int))))
      (fun x y => decide (x.1 ≤ y.1))
    have hturn : ∀ x, SameAngle x (360 - toDeg h0) ↔ SameAngle x (-(h0 * (180 / Real.pi))) := by
      intro x
      unfold toDeg
      constructor
      · rintro ⟨k, hk⟩; exact ⟨k + 1, by push_cast; linarith⟩
      · rintro ⟨k, hk⟩; exact ⟨k - 1, by push_cast; linarith⟩
    refine ⟨?_, ?_, ?_⟩
    · intro t d
      rw [hperm.mem_iff, List.mem_append, List.mem_map, List.mem_map]
      have hr' := occurrences_exact hs0 hr
      have hs'' := occurrences_exact hs0 hs'
      simp only [Prod.mk.injEq]
      constructor
      · rintro (⟨x, hx, rfl, rfl⟩ | ⟨x, hx, rfl, rfl⟩)
        · obtain ⟨t', h1, h2, h3, h4⟩ := (hr' x).mp hx
          exact ⟨t', h1, h2, h3, Or.inl ⟨rfl, (hturn _).mp h4⟩⟩
        · obtain ⟨t', h1, h2, h3, h4⟩ := (hs'' x).mp hx
          exact ⟨t', h1, h2, h3, Or.inr ⟨rfl, h4⟩⟩
      · rintro ⟨t', h1, h2, h3, (⟨rfl, h4⟩ | ⟨rfl, h4⟩)⟩
        · exact Or.inl ⟨t, (hr' t).mpr ⟨t', h1, h2, h3, (hturn _).mpr h4⟩, rfl, rfl⟩
        · exact Or.inr ⟨t, (hs'' t).mpr ⟨t', h1, h2, h3, h4⟩, rfl, rfl⟩
    · rw [hperm.nodup_iff, List.nodup_append]
      have hnd : ∀ (d : Int) (m : List ℝ), m.Pairwise (· < ·) → (m.map (fun t => (t, d))).Nodup := by
        intro d m hm
        refine List.Nodup.map (fun x y hxy => ?_) (hm.imp (fun h => ne_of_lt h))
        injection hxy
      refine ⟨hnd _ _ (occurrences_sorted hs _ _ _ (firstOffset_range hs0 _ _).1 hr),
        hnd _ _ (occurrences_sorted hs _ _ _ (firstOffset_range hs0 _ _).1 hs'), ?_⟩
      intro x hx y hy hxy
      obtain ⟨_, _, rfl⟩ := List.mem_map.mp hx
      obtain ⟨_, _, rfl⟩ := List.mem_map.mp hy
      simp at hxy
    · refine (List.pairwise_mergeSort (le := fun x y : ℝ × Int => decide (x.1 ≤ y.1)) ?_ ?_ _).imp ?_
      · intro x y z h1 h2
        simp only [decide_eq_true_eq] at h1 h2 ⊢
        linarith
      · intro x y
        simp only [Bool.or_eq_true, decide_eq_true_eq]
        exact le_total _ _
      · intro x y hxy
        simpa using hxy
  · cases h

/-- C190: the prediction always ends. -/
theorem predict_ends {sid : ℝ} (hs : 0 < sid) (ha start stop h0 : ℝ) :
    ∃ n₀, ∀ n ≥ n₀, ∃ l, predictCrossings n sid ha start stop h0 = some l := by
  obtain ⟨n, hn⟩ := occurrences_ends (start := start) (stop := stop) hs (firstOffset sid ha (360 - toDeg h0))
  obtain ⟨m, hm⟩ := occurrences_ends (start := start) (stop := stop) hs (firstOffset sid ha (toDeg h0))
  refine ⟨max n m, fun k hk => ?_⟩
  obtain ⟨r, hr⟩ := hn k (le_trans (le_max_left _ _) hk)
  obtain ⟨s, hs⟩ := hm k (le_trans (le_max_right _ _) hk)
  unfold predictCrossings
  simp only [hr, hs]
  exact ⟨_, rfl⟩

/-- A star at hour angle 0 at the start and `h0 = π/2` sets a quarter of a sidereal day later. -/
example (l : List (ℝ × Int)) (fuel : Nat) (h : predictCrossings fuel 1 0 0 (1 / 2) (Real.pi / 2) = some l) :
    (1 / 4, -1) ∈ l := by
  rw [(predict_exact (by norm_num) h).1]
  refine ⟨1 / 4, by norm_num, by norm_num, by norm_num, Or.inr ⟨rfl, 0, ?_⟩⟩
  have := Real.pi_ne_zero
  unfold turning
  field_simp
  norm_num

end Verif.Stellar.Props
