import Verif.Event.Scan3
import Mathlib.Tactic.NormNum

/-! Property theorems for the threshold searches (C16 - C20). Vocabulary: `Verif/Event/Spec.lean`. -/
namespace Verif.Event.Props
open Spec Set

/-! ### The search finishes (auxiliary to every property) -/

/-- With a positive step the directed search finishes. -/
theorem directed_terminates (root : RootFinder ℝ) (a b step : ℝ) (hstep : 0 < step) (f : ℝ → ℝ)
    (thr : ℝ) :
    ∃ N, ∀ fuel, N ≤ fuel → ∃ ps, aboveThresholdPeriodsDirected root fuel a b step f thr = some ps := by
  obtain ⟨N, hN⟩ := gridCells_terminates b step hstep a
  refine ⟨N, fun fuel hf => ?_⟩
  obtain ⟨cs, hcs⟩ := Option.isSome_iff_exists.mp (hN fuel hf)
  unfold aboveThresholdPeriodsDirected
  rw [findDirected_raw, hcs]
  exact ⟨_, rfl⟩

/-- With a positive step the labelling search finishes. -/
theorem labelled_terminates (root : RootFinder ℝ) (a b step : ℝ) (hstep : 0 < step) (f : ℝ → ℝ)
    (thr : ℝ) :
    ∃ N, ∀ fuel, N ≤ fuel → ∃ ps, aboveThresholdPeriods root fuel a b step f thr = some ps := by
  obtain ⟨N, hN⟩ := gridCells_terminates b step hstep a
  refine ⟨N, fun fuel hf => ?_⟩
  obtain ⟨cs, hcs⟩ := Option.isSome_iff_exists.mp (hN fuel hf)
  unfold aboveThresholdPeriods
  rw [findCrossings_raw, hcs]
  exact ⟨_, rfl⟩

/-- FINDING: with a zero or negative step no number of iterations finishes the search of a
non-empty window. -/
theorem nonpositive_step_never_finishes (root : RootFinder ℝ) (a b step : ℝ) (hab : a < b)
    (hstep : step ≤ 0) (f : ℝ → ℝ) (thr : ℝ) (fuel : Nat) :
    findCrossings root fuel a b step f thr = none ∧
    findDirectedCrossings root fuel a b step f thr = none := by
  rw [findCrossings_raw, findDirected_raw, gridCells_diverges b step hstep fuel a hab]
  exact ⟨rfl, rfl⟩

/-! ### C16 -/

/-- C16, partial. Periods of the directed search are non-degenerate, inside the window, sorted and
disjoint, for every function, provided that no grid sample is exactly on the threshold, the root
finder answers inside each bracket, and roots of different cells are at least the merge tolerance
apart. Missing for the full claim: exactly these three provisos (see the counterexamples). -/
theorem periods_wellformed_partial (root : RootFinder ℝ) (fuel : Nat) (a b step : ℝ) (f : ℝ → ℝ)
    (thr : ℝ) (hab : a < b) (hstep : 0 < step)
    (hgrid : ∀ k : ℕ, a + k * step ≤ b → f (a + k * step) ≠ thr) (hlast : f b ≠ thr)
    (hroot : ∀ lo hi, a ≤ lo → hi ≤ b → SignChange (fun t => f t - thr) lo hi →
      ∃ r, root lo hi (f lo - thr) (f hi - thr) (fun t => f t - thr) = some r ∧ lo ≤ r ∧ r ≤ hi)
    (hsep : ∀ k l : ℕ, k < l → ∀ r r',
      root (cellLo a step k) (cellHi a b step k) (f (cellLo a step k) - thr)
        (f (cellHi a b step k) - thr) (fun t => f t - thr) = some r →
      root (cellLo a step l) (cellHi a b step l) (f (cellLo a step l) - thr)
        (f (cellHi a b step l) - thr) (fun t => f t - thr) = some r' → 1 / 10 ^ 8 ≤ r' - r)
    (ps : List (ℝ × ℝ)) (h : aboveThresholdPeriodsDirected root fuel a b step f thr = some ps) :
    WellFormed a b ps := by
  unfold aboveThresholdPeriodsDirected at h
  rw [findDirected_raw, Option.map_map, Option.map_eq_some_iff] at h
  obtain ⟨cs, hcs, rfl⟩ := h
  simp only [Function.comp]
  have hch := gridCells_chain b step hstep fuel a hab.le cs hcs
  have hget := gridCells_get b step hstep fuel a cs hcs
  have hcell : ∀ (k : ℕ) c, cs[k]? = some c → a + k * step < b ∧
      c = (cellLo a step k, cellHi a b step k) := by
    intro k c hk
    by_cases hkb : a + k * step < b
    · rw [(hget k).1 hkb] at hk
      exact ⟨hkb, (Option.some.inj hk).symm⟩
    · rw [(hget k).2 hkb] at hk; simp at hk
  have hne : ∀ c ∈ cs, (fun t => f t - thr) c.1 ≠ 0 ∧ (fun t => f t - thr) c.2 ≠ 0 := by
    intro c hc
    obtain ⟨k, hk⟩ := List.mem_iff_getElem?.mp hc
    obtain ⟨hkb, rfl⟩ := hcell k c hk
    simp only [sub_ne_zero]
    refine ⟨hgrid k hkb.le, ?_⟩
    simp only [cellHi]
    rcases le_total (a + ((k : ℝ) + 1) * step) b with hle | hle
    · rw [min_eq_left hle]
      have := hgrid (k + 1)
      push_cast at this
      exact this hle
    · rw [min_eq_right hle]; exact hlast
  have halt := scan_alternates root (fun t => f t - thr) a b a cs hch le_rfl hne
    (fun c hc hsc => hroot c.1 c.2 (hch.bounds.2 c hc).1 (hch.bounds.2 c hc).2.2 hsc)
  have hpw : (times (cs.filterMap (cellDirected root (fun t => f t - thr) a b))).Pairwise
      (fun x y => dedupeEps ≤ y - x) := by
    simp only [times, List.pairwise_map, List.pairwise_filterMap]
    rw [List.pairwise_iff_getElem]
    intro i j hi hj hij x hx y hy
    have h1 := (cellDirected_some _ _ _ _ _ _ hx).2.2.1
    have h2 := (cellDirected_some _ _ _ _ _ _ hy).2.2.1
    rw [(hcell i _ (List.getElem?_eq_getElem hi)).2] at h1
    rw [(hcell j _ (List.getElem?_eq_getElem hj)).2] at h2
    exact hsep i j hij _ _ h1 h2
  rw [sortAndDedup_id _ hpw]
  apply buildDirected_wf a b hab _ _ halt (times_strict hpw)
  intro x hx
  simp only [times, List.mem_map, List.mem_filterMap] at hx
  obtain ⟨y, ⟨c, _, hcd⟩, rfl⟩ := hx
  have := cellDirected_some _ _ _ _ _ _ hcd
  exact ⟨this.1, this.2.1⟩

/-- Continuous, piecewise linear: zeros at 1/2, 2 and 7/2, the second one on a grid point. -/
noncomputable def zig (t : ℝ) : ℝ := if t ≤ 1 then 2 * t - 1 else if t ≤ 3 then 2 - t else 2 * t - 7

/-- The bracket midpoint; exact on the two brackets of `zig` that matter. -/
noncomputable def midRoot : RootFinder ℝ := fun lo hi _ _ _ => some ((lo + hi) / 2)

theorem zig_cells : gridCells (7 : ℝ) 1 8 0 =
    some [(0, 1), (1, 2), (2, 3), (3, 4), (4, 5), (5, 6), (6, 7)] := by
  norm_num [gridCells, nextTime]

theorem zig_raw : ([(0, 1), (1, 2), (2, 3), (3, 4), (4, 5), (5, 6), (6, 7)] : List (ℝ × ℝ)).filterMap
    (cellDirected midRoot (fun t => zig t - 0) 0 7) = [⟨1 / 2, 1⟩, ⟨7 / 2, 1⟩] := by
  simp only [List.filterMap_cons, List.filterMap_nil]
  norm_num [cellDirected, bracketDirection, zig, midRoot]

/-- FINDING (negation of C16): a sample exactly on the threshold makes both searches return
overlapping periods for a continuous function and an exact root finder. -/
theorem periods_can_overlap :
    aboveThresholdPeriodsDirected midRoot 8 0 7 1 zig 0 = some [(1 / 2, 7), (7 / 2, 7)] ∧
    aboveThresholdPeriods midRoot 8 0 7 1 zig 0 = some [(1 / 2, 7), (7 / 2, 7)] ∧
    ¬ WellFormed (0 : ℝ) 7 [(1 / 2, 7), (7 / 2, 7)] := by
  have hsep : (times ([⟨1 / 2, 1⟩, ⟨7 / 2, 1⟩] : List (LabeledCrossing ℝ))).Pairwise
      (fun x y => dedupeEps ≤ y - x) := by
    norm_num [times, dedupeEps]
  refine ⟨?_, ?_, ?_⟩
  · unfold aboveThresholdPeriodsDirected
    rw [findDirected_raw, zig_cells]
    simp only [Option.map_some]
    rw [zig_raw, sortAndDedup_id _ hsep]
    norm_num [buildAbovePeriodsDirected, directedPairs]
  · unfold aboveThresholdPeriods
    rw [findCrossings_raw, zig_cells]
    simp only [Option.map_some]
    rw [zig_raw]
    unfold labelCrossings
    simp only
    rw [labelSort_id _ hsep]
    have hl : (times ([⟨1 / 2, 1⟩, ⟨7 / 2, 1⟩] : List (LabeledCrossing ℝ))).filterMap
        (labelOne zig 0) = [⟨1 / 2, 1⟩, ⟨7 / 2, 1⟩] := by
      simp only [times, List.map_cons, List.map_nil, List.filterMap_cons, List.filterMap_nil]
      norm_num [labelOne, zig, probeDt]
    have h0 : decide (zig 0 > 0) = false := by norm_num [zig]
    rw [hl, h0, buildAbovePeriods, if_neg (by simp), abovePairs, if_pos rfl]
    simp only
    rw [if_neg (by norm_num), abovePairs, if_pos rfl]
    norm_num [midpoint, zig]
  · norm_num [WellFormed]

/-! ### C17 -/

/-- C17 for the directed search, end to end: if the step resolves the quantity and the root finder
is accurate to `tol`, an instant farther than `tol` from every threshold contact belongs to a
reported period iff the quantity is above the threshold there; and the periods are well formed. -/
theorem above_periods_exact_directed (root : RootFinder ℝ) (fuel : Nat) (a b step tol : ℝ)
    (f : ℝ → ℝ) (thr : ℝ) (hab : a < b) (hstep : 0 < step) (htol : 0 ≤ tol)
    (hres : Resolved (fun t => f t - thr) a b step)
    (hacc : Accurate root (fun t => f t - thr) a b tol)
    (hsep : Separated (fun t => f t - thr) a b (1 / 10 ^ 8 + 2 * tol))
    (ps : List (ℝ × ℝ)) (h : aboveThresholdPeriodsDirected root fuel a b step f thr = some ps) :
    WellFormed a b ps ∧
    ∀ t ∈ Icc a b, (∀ z ∈ Icc a b, f z = thr → tol < |t - z|) → (InSome ps t ↔ f t > thr) := by
  unfold aboveThresholdPeriodsDirected at h
  rw [Option.map_eq_some_iff] at h
  obtain ⟨⟨l, s⟩, hls, rfl⟩ := h
  obtain ⟨_, halt, hpw, hin, _, hstate⟩ := directed_scan root fuel a b step tol f thr hab hstep
    htol hres hacc hsep l s hls
  refine ⟨buildDirected_wf a b hab s l halt (times_strict hpw) hin, fun t ht hfar => ?_⟩
  obtain ⟨hnt, hst⟩ := hstate t ht hfar
  rw [← hst]
  exact buildDirected_mem a b t ht.1 ht.2 s l halt (times_strict hpw) hin hnt

/-- C17 for the labelling search (`above_threshold_periods`): additionally contacts must be
crossings, at least two probe widths apart and away from the window ends. -/
theorem above_periods_exact_partial (root : RootFinder ℝ) (fuel : Nat) (a b step tol : ℝ)
    (f : ℝ → ℝ) (thr : ℝ) (hab : a + 2 / 10 ^ 7 ≤ b) (hstep : 0 < step) (htol : 0 ≤ tol)
    (hprobe : 2 * tol < 1 / 10 ^ 7)
    (hres : Resolved (fun t => f t - thr) a b step)
    (hacc : Accurate root (fun t => f t - thr) a b tol)
    (hcross : AllCross (fun t => f t - thr) a b step)
    (hsep : Separated (fun t => f t - thr) a b (2 / 10 ^ 7 + 2 * tol))
    (hint : ∀ z ∈ Icc a b, f z = thr → a + 2 / 10 ^ 7 + tol ≤ z ∧ z ≤ b - 2 / 10 ^ 7 - tol)
    (ps : List (ℝ × ℝ)) (h : aboveThresholdPeriods root fuel a b step f thr = some ps) :
    WellFormed a b ps ∧
    ∀ t ∈ Icc a b, (∀ z ∈ Icc a b, f z = thr → tol < |t - z|) → (InSome ps t ↔ f t > thr) := by
  have hp : (2 / 10 ^ 7 : ℝ) = 2 * probeDt := by unfold probeDt; ring
  rw [hp] at hab hsep hint
  have hpp := probeDt_pos
  have hdp := dedupe_lt_probe
  rw [labelled_eq_directed root fuel a b step tol f thr hab hstep htol
    (by unfold probeDt; exact hprobe) hres hacc hcross hsep hint] at h
  refine above_periods_exact_directed root fuel a b step tol f thr (by linarith) hstep htol hres hacc
    (fun z hz z' hz' h1 h2 h3 => ?_) ps h
  have := hsep z hz z' hz' h1 h2 h3
  have : (1 / 10 ^ 8 : ℝ) = dedupeEps := rfl
  linarith

/-- FINDING: a tangential contact at the middle of a period makes the labelling search drop the
whole period: the quantity is above 0 on the window except at its middle, but nothing is returned. -/
theorem tangency_drops_period :
    aboveThresholdPeriods midRoot 5 0 4 1 (fun t => if t ≤ 1 then 4 * t - 2 else
        if t ≤ 3 then 2 * |t - 2| else 14 - 4 * t) 0 = some [] ∧
    0 < (fun t : ℝ => if t ≤ 1 then 4 * t - 2 else if t ≤ 3 then 2 * |t - 2| else 14 - 4 * t)
        (3 / 2) := by
  constructor
  · unfold aboveThresholdPeriods
    rw [findCrossings_raw]
    have hc : gridCells (4 : ℝ) 1 5 0 = some [(0, 1), (1, 2), (2, 3), (3, 4)] := by
      norm_num [gridCells, nextTime]
    rw [hc]
    simp only [Option.map_some]
    have hr : ([(0, 1), (1, 2), (2, 3), (3, 4)] : List (ℝ × ℝ)).filterMap
        (cellDirected midRoot (fun t => (if t ≤ 1 then 4 * t - 2 else
        if t ≤ 3 then 2 * |t - 2| else 14 - 4 * t) - 0) 0 4) = [⟨1 / 2, 1⟩, ⟨7 / 2, -1⟩] := by
      simp only [List.filterMap_cons, List.filterMap_nil]
      norm_num [cellDirected, bracketDirection, midRoot]
    rw [hr]
    unfold labelCrossings
    simp only
    rw [labelSort_id _ (by norm_num [times, dedupeEps])]
    have hl : (times ([⟨1 / 2, 1⟩, ⟨7 / 2, -1⟩] : List (LabeledCrossing ℝ))).filterMap
        (labelOne (fun t => if t ≤ 1 then 4 * t - 2 else
        if t ≤ 3 then 2 * |t - 2| else 14 - 4 * t) 0) = [⟨1 / 2, 1⟩, ⟨7 / 2, -1⟩] := by
      simp only [times, List.map_cons, List.map_nil, List.filterMap_cons, List.filterMap_nil]
      norm_num [labelOne, probeDt]
    rw [hl, buildAbovePeriods, if_neg (by norm_num), abovePairs, if_pos rfl]
    simp only
    rw [if_pos (by norm_num), abovePairs]
    norm_num [midpoint]
  · norm_num [abs_of_nonpos]

/-! ### C18 -/

/-- C18 for the directed range search: away from contacts with either bound, an instant belongs to
a reported period iff the quantity is above the lower and below the upper bound. -/
theorem in_range_exact_directed (alg : PeriodAlgebra ℝ) (root : RootFinder ℝ) (fuel : Nat)
    (a b step tol : ℝ) (f : ℝ → ℝ) (hMin hMax : ℝ) (hab : a < b) (hstep : 0 < step) (htol : 0 ≤ tol)
    (halg : AlgebraOK alg.complement alg.intersect a b)
    (hres1 : Resolved (fun t => f t - hMin) a b step)
    (hacc1 : Accurate root (fun t => f t - hMin) a b tol)
    (hsep1 : Separated (fun t => f t - hMin) a b (1 / 10 ^ 8 + 2 * tol))
    (hres2 : Resolved (fun t => f t - hMax) a b step)
    (hacc2 : Accurate root (fun t => f t - hMax) a b tol)
    (hsep2 : Separated (fun t => f t - hMax) a b (1 / 10 ^ 8 + 2 * tol))
    (ps : List (ℝ × ℝ)) (h : inRangePeriodsDirected alg root fuel a b step f hMin hMax = some ps)
    (t : ℝ) (hat : a < t) (htb : t < b)
    (hfar : ∀ z ∈ Icc a b, f z = hMin ∨ f z = hMax → tol < |t - z|) :
    InSome ps t ↔ hMin < f t ∧ f t < hMax := by
  unfold inRangePeriodsDirected at h
  cases h1 : aboveThresholdPeriodsDirected root fuel a b step f hMin with
  | none => rw [h1] at h; simp at h
  | some p1 =>
    cases h2 : aboveThresholdPeriodsDirected root fuel a b step f hMax with
    | none => rw [h1, h2] at h; simp at h
    | some p2 =>
      rw [h1, h2] at h
      simp only [Option.pure_def, Option.bind_eq_bind, Option.bind_some, Option.some.injEq] at h
      subst h
      have e1 := above_periods_exact_directed root fuel a b step tol f hMin hab hstep htol hres1 hacc1
        hsep1 p1 h1
      have e2 := above_periods_exact_directed root fuel a b step tol f hMax hab hstep htol hres2 hacc2
        hsep2 p2 h2
      -- ends of the two period lists
      have ends : ∀ thr p, (thr = hMin ∨ thr = hMax) →
          Resolved (fun t => f t - thr) a b step → Accurate root (fun t => f t - thr) a b tol →
          Separated (fun t => f t - thr) a b (1 / 10 ^ 8 + 2 * tol) →
          aboveThresholdPeriodsDirected root fuel a b step f thr = some p →
          ∀ q ∈ p, t ≠ q.1 ∧ t ≠ q.2 := by
        intro thr p hthr hr ha hs hp q hq
        unfold aboveThresholdPeriodsDirected at hp
        rw [Option.map_eq_some_iff] at hp
        obtain ⟨⟨l, s⟩, hls, rfl⟩ := hp
        obtain ⟨_, _, _, _, _, hstate⟩ := directed_scan root fuel a b step tol f thr hab hstep
          htol hr ha hs l s hls
        have hnt := (hstate t ⟨hat.le, htb.le⟩ (fun z hz hz0 => hfar z hz (by
          rcases hthr with rfl | rfl
          · exact Or.inl hz0
          · exact Or.inr hz0))).1
        obtain ⟨h3, h4⟩ := buildDirected_ends a b s l q hq
        constructor
        · rintro rfl
          rcases h3 with h3 | h3
          · linarith
          · exact hnt h3
        · rintro rfl
          rcases h4 with h4 | h4
          · linarith
          · exact hnt h4
      have n1 := ends hMin p1 (Or.inl rfl) hres1 hacc1 hsep1 h1
      have n2 := ends hMax p2 (Or.inr rfl) hres2 hacc2 hsep2 h2
      have n3 : ∀ q ∈ alg.complement (a, b) p2, t ≠ q.1 ∧ t ≠ q.2 := by
        intro q hq
        obtain ⟨h3, h4⟩ := halg.compl_ends p2 e2.1 q hq
        constructor
        · rcases h3 with h3 | ⟨p, hp, h3⟩
          · linarith
          · rw [h3]; exact (n2 p hp).2
        · rcases h4 with h4 | ⟨p, hp, h4⟩
          · linarith
          · rw [h4]; exact (n2 p hp).1
      rw [halg.inter_mem p1 _ e1.1 (halg.compl_wf p2 e2.1) t n1 n3,
        halg.compl_mem p2 e2.1 t hat htb n2,
        e1.2 t ⟨hat.le, htb.le⟩ (fun z hz hz0 => hfar z hz (Or.inl hz0)),
        e2.2 t ⟨hat.le, htb.le⟩ (fun z hz hz0 => hfar z hz (Or.inr hz0))]
      have hne : f t ≠ hMax := by
        intro h0
        have := hfar t ⟨hat.le, htb.le⟩ (Or.inr h0)
        simp at this
        linarith
      constructor
      · rintro ⟨h3, h4⟩
        exact ⟨h3, lt_of_le_of_ne (not_lt.mp h4) hne⟩
      · rintro ⟨h3, h4⟩
        exact ⟨h3, not_lt.mpr h4.le⟩

/-- C18 for the labelling range search (`in_range_periods`), under the conditions of
`above_periods_exact_partial` for both bounds. -/
theorem in_range_exact_partial (alg : PeriodAlgebra ℝ) (root : RootFinder ℝ) (fuel : Nat)
    (a b step tol : ℝ) (f : ℝ → ℝ) (hMin hMax : ℝ) (hab : a + 2 / 10 ^ 7 ≤ b) (hstep : 0 < step)
    (htol : 0 ≤ tol) (hprobe : 2 * tol < 1 / 10 ^ 7)
    (halg : AlgebraOK alg.complement alg.intersect a b)
    (hb : ∀ thr, thr = hMin ∨ thr = hMax →
      Resolved (fun t => f t - thr) a b step ∧ Accurate root (fun t => f t - thr) a b tol ∧
      AllCross (fun t => f t - thr) a b step ∧
      Separated (fun t => f t - thr) a b (2 / 10 ^ 7 + 2 * tol) ∧
      ∀ z ∈ Icc a b, f z = thr → a + 2 / 10 ^ 7 + tol ≤ z ∧ z ≤ b - 2 / 10 ^ 7 - tol)
    (ps : List (ℝ × ℝ)) (h : inRangePeriods alg root fuel a b step f hMin hMax = some ps)
    (t : ℝ) (hat : a < t) (htb : t < b)
    (hfar : ∀ z ∈ Icc a b, f z = hMin ∨ f z = hMax → tol < |t - z|) :
    InSome ps t ↔ hMin < f t ∧ f t < hMax := by
  have hp : (2 / 10 ^ 7 : ℝ) = 2 * probeDt := by unfold probeDt; ring
  have hpp := probeDt_pos
  have hdp := dedupe_lt_probe
  have heq : ∀ thr, thr = hMin ∨ thr = hMax → aboveThresholdPeriods root fuel a b step f thr
      = aboveThresholdPeriodsDirected root fuel a b step f thr := by
    intro thr hthr
    obtain ⟨h1, h2, h3, h4, h5⟩ := hb thr hthr
    rw [hp] at h4 h5
    exact labelled_eq_directed root fuel a b step tol f thr (by rw [← hp]; exact hab) hstep htol
      (by unfold probeDt; exact hprobe) h1 h2 h3 h4 h5
  have hsep : ∀ thr, thr = hMin ∨ thr = hMax →
      Separated (fun t => f t - thr) a b (1 / 10 ^ 8 + 2 * tol) := by
    intro thr hthr z hz z' hz' h1 h2 h3
    have := (hb thr hthr).2.2.2.1 z hz z' hz' h1 h2 h3
    have : (1 / 10 ^ 8 : ℝ) = dedupeEps := rfl
    linarith
  have h' : inRangePeriodsDirected alg root fuel a b step f hMin hMax = some ps := by
    unfold inRangePeriods at h
    rw [heq hMin (Or.inl rfl), heq hMax (Or.inr rfl)] at h
    exact h
  exact in_range_exact_directed alg root fuel a b step tol f hMin hMax (by linarith) hstep htol halg
    (hb hMin (Or.inl rfl)).1 (hb hMin (Or.inl rfl)).2.1 (hsep hMin (Or.inl rfl))
    (hb hMax (Or.inr rfl)).1 (hb hMax (Or.inr rfl)).2.1 (hsep hMax (Or.inr rfl)) ps h' t hat htb hfar

/-! ### C19 -/

/-- C19: every crossing reported by the directed search lies in the window, is the root finder's
answer on a grid cell whose end samples have opposite signs, carries the direction of that sign
change, and any two are in increasing order at least the merge tolerance apart. All functions. -/
theorem crossings_genuine (root : RootFinder ℝ) (fuel : Nat) (a b step : ℝ) (hab : a ≤ b)
    (hstep : 0 < step) (f : ℝ → ℝ) (thr : ℝ) (l : List (LabeledCrossing ℝ)) (s : Bool)
    (h : findDirectedCrossings root fuel a b step f thr = some (l, s)) :
    (∀ c ∈ l, a ≤ c.t ∧ c.t ≤ b ∧ ∃ k : ℕ, cellLo a step k < b ∧
      root (cellLo a step k) (cellHi a b step k) (f (cellLo a step k) - thr)
        (f (cellHi a b step k) - thr) (fun t => f t - thr) = some c.t ∧
      ((c.direction = 1 ∧ f (cellLo a step k) < thr ∧ thr < f (cellHi a b step k)) ∨
       (c.direction = -1 ∧ thr < f (cellLo a step k) ∧ f (cellHi a b step k) < thr))) ∧
    l.Pairwise (fun c d => 1 / 10 ^ 8 ≤ d.t - c.t) ∧ (s = true ↔ f a > thr) := by
  rw [findDirected_raw] at h
  simp only [Option.map_eq_some_iff, Prod.mk.injEq] at h
  obtain ⟨cs, hcs, hl, hs⟩ := h
  subst hl
  refine ⟨fun c hc => ?_, sortAndDedup_sep _, ?_⟩
  · have hc' := sortAndDedup_subset _ _ hc
    simp only [List.mem_filterMap] at hc'
    obtain ⟨cell, hcell, hcd⟩ := hc'
    obtain ⟨h1, h2, h3, h4⟩ := cellDirected_some _ _ _ _ _ _ hcd
    obtain ⟨k, hk⟩ := List.mem_iff_getElem?.mp hcell
    have hget := gridCells_get b step hstep fuel a cs hcs k
    by_cases hkb : a + k * step < b
    · rw [hget.1 hkb] at hk
      obtain rfl := Option.some.inj hk
      refine ⟨h1, h2, k, hkb, h3, ?_⟩
      simp only at h4
      rcases h4 with ⟨hd, h5, h6⟩ | ⟨hd, h5, h6⟩
      · exact Or.inl ⟨hd, by linarith, by linarith⟩
      · exact Or.inr ⟨hd, by linarith, by linarith⟩
    · rw [hget.2 hkb] at hk; simp at hk
  · rw [← hs, decide_eq_true_iff]
    constructor <;> intro h <;> linarith

/-- C19 for the plain scan: every returned time lies in the window and is the root finder's answer
on a sign-changing grid cell. -/
theorem plain_crossings_genuine (root : RootFinder ℝ) (fuel : Nat) (a b step : ℝ)
    (hstep : 0 < step) (f : ℝ → ℝ) (thr : ℝ) (l : List ℝ)
    (h : findCrossings root fuel a b step f thr = some l) :
    ∀ r ∈ l, a ≤ r ∧ r ≤ b ∧ ∃ k : ℕ, cellLo a step k < b ∧
      root (cellLo a step k) (cellHi a b step k) (f (cellLo a step k) - thr)
        (f (cellHi a b step k) - thr) (fun t => f t - thr) = some r ∧
      SignChange (fun t => f t - thr) (cellLo a step k) (cellHi a b step k) := by
  rw [findCrossings_raw] at h
  simp only [Option.map_eq_some_iff] at h
  obtain ⟨cs, hcs, rfl⟩ := h
  intro r hr
  simp only [times, List.mem_map, List.mem_filterMap] at hr
  obtain ⟨c, ⟨cell, hcell, hcd⟩, rfl⟩ := hr
  obtain ⟨h1, h2, h3, h4⟩ := cellDirected_some _ _ _ _ _ _ hcd
  obtain ⟨k, hk⟩ := List.mem_iff_getElem?.mp hcell
  have hget := gridCells_get b step hstep fuel a cs hcs k
  by_cases hkb : a + k * step < b
  · rw [hget.1 hkb] at hk
    obtain rfl := Option.some.inj hk
    refine ⟨h1, h2, k, hkb, h3, ?_⟩
    rcases h4 with ⟨_, h5, h6⟩ | ⟨_, h5, h6⟩
    · exact Or.inl ⟨h5, h6⟩
    · exact Or.inr ⟨h5, h6⟩
  · rw [hget.2 hkb] at hk; simp at hk

/-- C19 for the plain scan: if the root finder answers inside the bracket it is given, the returned
times are in increasing order, one per sign-changing cell. -/
theorem plain_crossings_sorted (root : RootFinder ℝ) (fuel : Nat) (a b step : ℝ)
    (hstep : 0 < step) (f : ℝ → ℝ) (thr : ℝ) (l : List ℝ)
    (hroot : ∀ lo hi r, SignChange (fun t => f t - thr) lo hi →
      root lo hi (f lo - thr) (f hi - thr) (fun t => f t - thr) = some r → lo ≤ r ∧ r ≤ hi)
    (h : findCrossings root fuel a b step f thr = some l) : l.Pairwise (· ≤ ·) := by
  rw [findCrossings_raw] at h
  simp only [Option.map_eq_some_iff] at h
  obtain ⟨cs, hcs, rfl⟩ := h
  simp only [times, List.pairwise_map, List.pairwise_filterMap]
  rw [List.pairwise_iff_getElem]
  intro i j hi hj hij x hx y hy
  have hcell : ∀ (k : ℕ) (hk : k < cs.length), cs[k] = (cellLo a step k, cellHi a b step k) := by
    intro k hk
    have hget := gridCells_get b step hstep fuel a cs hcs k
    rw [List.getElem?_eq_getElem hk] at hget
    by_cases hkb : a + k * step < b
    · exact Option.some.inj (hget.1 hkb)
    · exact absurd (hget.2 hkb) (by simp)
  have key : ∀ (k : ℕ) (hk : k < cs.length) (c : LabeledCrossing ℝ),
      cellDirected root (fun t => f t - thr) a b cs[k] = some c →
      cellLo a step k ≤ c.t ∧ c.t ≤ cellHi a b step k := by
    intro k hk c hc
    obtain ⟨_, _, h3, h4⟩ := cellDirected_some _ _ _ _ _ _ hc
    rw [hcell k hk] at h3 h4
    refine hroot _ _ _ ?_ h3
    rcases h4 with ⟨_, h5, h6⟩ | ⟨_, h5, h6⟩
    · exact Or.inl ⟨h5, h6⟩
    · exact Or.inr ⟨h5, h6⟩
  have h1 := (key i hi x hx).2
  have h2 := (key j hj y hy).1
  have h3 : cellHi a b step i ≤ cellLo a step j := by
    unfold cellHi cellLo
    refine (min_le_left _ _).trans ?_
    have : ((i : ℝ) + 1) ≤ j := by exact_mod_cast hij
    nlinarith
  exact h1.trans (h3.trans h2)

/-! ### C20 -/

/-- C20, partial: every grid cell whose end samples lie strictly on opposite sides of the threshold
yields a returned crossing inside that cell (plain scan), and one within the merge tolerance of a
point of that cell (directed scan), if the root finder answers inside the cell. Missing: samples
exactly on the threshold, see `exact_zero_sample_missed`. -/
theorem no_sampled_sign_change_missed_partial (root : RootFinder ℝ) (fuel : Nat) (a b step : ℝ)
    (hstep : 0 < step) (f : ℝ → ℝ) (thr : ℝ) (l : List ℝ)
    (dl : List (LabeledCrossing ℝ)) (s : Bool)
    (h : findCrossings root fuel a b step f thr = some l)
    (hd : findDirectedCrossings root fuel a b step f thr = some (dl, s))
    (k : ℕ) (hk : cellLo a step k < b)
    (hsc : SignChange (fun t => f t - thr) (cellLo a step k) (cellHi a b step k))
    (r : ℝ) (hr : root (cellLo a step k) (cellHi a b step k) (f (cellLo a step k) - thr)
        (f (cellHi a b step k) - thr) (fun t => f t - thr) = some r)
    (hin : cellLo a step k ≤ r ∧ r ≤ cellHi a b step k) :
    r ∈ l ∧ ∃ c ∈ dl, |r - c.t| < 1 / 10 ^ 8 := by
  rw [findCrossings_raw] at h
  rw [findDirected_raw] at hd
  cases hcs : gridCells b step fuel a with
  | none => rw [hcs] at h; simp at h
  | some cs =>
    rw [hcs] at h hd
    simp only [Option.map_some, Option.some.injEq, Prod.mk.injEq] at h hd
    have hget := (gridCells_get b step hstep fuel a cs hcs k).1 hk
    have hc : (cellLo a step k, cellHi a b step k) ∈ cs := List.mem_iff_getElem?.mpr ⟨k, hget⟩
    have hwin : r ≥ a ∧ r ≤ b := by
      have h1 : a ≤ cellLo a step k := by
        unfold cellLo
        have : 0 ≤ (k : ℝ) * step := mul_nonneg (Nat.cast_nonneg k) hstep.le
        linarith
      exact ⟨h1.trans hin.1, hin.2.trans (min_le_right _ _)⟩
    obtain ⟨d, hcd⟩ : ∃ d, cellDirected root (fun t => f t - thr) a b
        (cellLo a step k, cellHi a b step k) = some ⟨r, d⟩ := by
      rcases hsc with ⟨h1, h2⟩ | ⟨h1, h2⟩
      · refine ⟨1, ?_⟩
        simp only [cellDirected, bracketDirection]
        rw [if_pos ⟨h1, h2⟩]
        simp only [hr]
        rw [if_pos hwin]
      · refine ⟨-1, ?_⟩
        simp only [cellDirected, bracketDirection]
        rw [if_neg (fun h => absurd h.1 (not_lt.mpr h1.le)), if_pos ⟨h1, h2⟩]
        simp only [hr]
        rw [if_pos hwin]
    have hmem : (⟨r, d⟩ : LabeledCrossing ℝ) ∈
        cs.filterMap (cellDirected root (fun t => f t - thr) a b) :=
      List.mem_filterMap.mpr ⟨_, hc, hcd⟩
    constructor
    · rw [← h]; exact List.mem_map.mpr ⟨_, hmem, rfl⟩
    · rw [← hd.1]
      obtain ⟨z, hz, hz2⟩ := sortAndDedup_near _ _ hmem
      exact ⟨z, hz, hz2⟩

/-- FINDING (negation of C20): `f t = t - 1` crosses 0 at the grid point 1 of the window `[0, 2]`,
step 1, but nothing is reported, whatever root finder is used; the period above 0 is lost too. -/
theorem exact_zero_sample_missed (root : RootFinder ℝ) :
    findCrossings root 3 0 2 1 (fun t => t - 1) 0 = some [] ∧
    aboveThresholdPeriodsDirected root 3 0 2 1 (fun t => t - 1) 0 = some [] ∧
    aboveThresholdPeriods root 3 0 2 1 (fun t => t - 1) 0 = some [] := by
  have hc : gridCells (2 : ℝ) 1 3 0 = some [(0, 1), (1, 2)] := by
    norm_num [gridCells, nextTime]
  have hr : ([(0, 1), (1, 2)] : List (ℝ × ℝ)).filterMap
      (cellDirected root (fun t => t - 1 - 0) 0 2) = [] := by
    norm_num [cellDirected, bracketDirection]
  refine ⟨?_, ?_, ?_⟩
  · rw [findCrossings_raw, hc]
    simp only [Option.map_some, hr]
    rfl
  · unfold aboveThresholdPeriodsDirected
    rw [findDirected_raw, hc]
    simp only [Option.map_some, hr]
    norm_num [sortAndDedup, dedupBy, buildAbovePeriodsDirected]
  · unfold aboveThresholdPeriods
    rw [findCrossings_raw, hc]
    simp only [Option.map_some, hr]
    norm_num [times, labelCrossings, dedupBy, buildAbovePeriods]

/-! ### The hypotheses can be met -/

/-- Linear interpolation root finder, exact on linear functions. -/
noncomputable def secantRoot : RootFinder ℝ :=
  fun lo hi flo fhi _ => some (lo - flo * (hi - lo) / (fhi - flo))

theorem ramp_resolved (c : ℝ) (h1 : 3 / 10 < c) (h2 : c < 6 / 10) :
    Resolved (fun t => t - c) 0 1 (3 / 10) where
  cont := by fun_prop
  grid := by
    intro k _
    have : k = 0 ∨ k = 1 ∨ 2 ≤ k := by omega
    rcases this with rfl | rfl | hk
    · simp; linarith
    · simp; linarith
    · have : (2 : ℝ) ≤ k := by exact_mod_cast hk
      simp only [zero_add, ne_eq]
      intro h; linarith
  last := by simp only [ne_eq]; intro h; linarith
  unique := by
    intro k z z' _ _ h1 h2
    linarith

theorem ramp_accurate (c : ℝ) : Accurate secantRoot (fun t => t - c) 0 1 0 := by
  intro lo hi _ hlt _ hsc
  have hne : hi - lo ≠ 0 := by linarith
  have hr : lo - (lo - c) * (hi - lo) / (hi - c - (lo - c)) = c := by
    have e : hi - c - (lo - c) = hi - lo := by ring
    rw [e, mul_div_assoc, div_self hne]; ring
  refine ⟨c, c, ?_, ?_, ?_, by simp, by simp⟩
  · simp only [secantRoot, hr]
  all_goals
    rcases hsc with ⟨h1, h2⟩ | ⟨h1, h2⟩
    · simp only at h1 h2; exact ⟨by linarith, by linarith⟩
    · simp only at h1 h2; linarith

theorem ramp_allCross (c : ℝ) (h1 : 3 / 10 < c) (h2 : c < 6 / 10) :
    AllCross (fun t => t - c) 0 1 (3 / 10) := by
  intro z _ hz0
  have : z = c := by simp only at hz0; linarith
  subst this
  refine ⟨1, ?_, ?_, Or.inl ?_⟩ <;> norm_num [cellLo, cellHi]
  · constructor <;> linarith
  · constructor <;> linarith

theorem ramp_separated (c d : ℝ) : Separated (fun t => t - c) 0 1 d := by
  intro z _ z' _ h1 h2 h3
  simp only at h1 h2
  exact absurd (by linarith) h3

/-- Non-vacuity of C17/C18: a ramp, two bounds, a real search with non-trivial answer. -/
example : ∃ fuel ps, aboveThresholdPeriods secantRoot fuel 0 1 (3 / 10) (fun t => t) (1 / 2) = some ps ∧
    ∀ t ∈ Icc (0 : ℝ) 1, t ≠ 1 / 2 → (InSome ps t ↔ t > 1 / 2) := by
  obtain ⟨N, hN⟩ := labelled_terminates secantRoot 0 1 (3 / 10) (by norm_num) (fun t => t) (1 / 2)
  obtain ⟨ps, hps⟩ := hN N le_rfl
  refine ⟨N, ps, hps, fun t ht hne => ?_⟩
  refine (above_periods_exact_partial secantRoot N 0 1 (3 / 10) 0 (fun t => t) (1 / 2) (by norm_num)
    (by norm_num) le_rfl (by norm_num) (ramp_resolved _ (by norm_num) (by norm_num))
    (ramp_accurate _) (ramp_allCross _ (by norm_num) (by norm_num)) (ramp_separated _ _)
    ?_ ps hps).2 t ht ?_
  · rintro z _ rfl; norm_num
  · rintro z _ rfl
    exact abs_pos.mpr (sub_ne_zero.mpr hne)

example : ∃ fuel ps, inRangePeriodsDirected ⟨refCompl, refInter⟩ secantRoot fuel 0 1 (3 / 10)
      (fun t => t) (4 / 10) (5 / 10) = some ps ∧
    ∀ t : ℝ, 0 < t → t < 1 → t ≠ 4 / 10 → t ≠ 5 / 10 →
      (InSome ps t ↔ 4 / 10 < t ∧ t < 5 / 10) := by
  obtain ⟨N1, hN1⟩ := directed_terminates secantRoot 0 1 (3 / 10) (by norm_num) (fun t => t) (4 / 10)
  obtain ⟨N2, hN2⟩ := directed_terminates secantRoot 0 1 (3 / 10) (by norm_num) (fun t => t) (5 / 10)
  obtain ⟨p1, h1⟩ := hN1 (max N1 N2) (le_max_left _ _)
  obtain ⟨p2, h2⟩ := hN2 (max N1 N2) (le_max_right _ _)
  have h : inRangePeriodsDirected ⟨refCompl, refInter⟩ secantRoot (max N1 N2) 0 1 (3 / 10)
      (fun t => t) (4 / 10) (5 / 10) = some (refInter p1 (refCompl (0, 1) p2)) := by
    unfold inRangePeriodsDirected; rw [h1, h2]; rfl
  refine ⟨_, _, h, fun t h0 h1' hn1 hn2 => ?_⟩
  refine in_range_exact_directed ⟨refCompl, refInter⟩ secantRoot _ 0 1 (3 / 10) 0 (fun t => t) _ _
    (by norm_num) (by norm_num) le_rfl (refAlgebra_ok 0 1)
    (ramp_resolved _ (by norm_num) (by norm_num)) (ramp_accurate _) (ramp_separated _ _)
    (ramp_resolved _ (by norm_num) (by norm_num)) (ramp_accurate _) (ramp_separated _ _) _ h t h0 h1' ?_
  rintro z _ (rfl | rfl)
  · exact abs_pos.mpr (sub_ne_zero.mpr hn1)
  · exact abs_pos.mpr (sub_ne_zero.mpr hn2)

end Verif.Event.Props
