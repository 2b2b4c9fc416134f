import Mathlib.Algebra.Order.Archimedean.Basic
import Mathlib.Data.Rat.Floor
import Mathlib.Algebra.Order.Archimedean.Real.Basic
import Mathlib.Tactic.IntervalCases
import Verif.Search.Ramp

/-! Properties of the crossing engine (C75, C76). -/
namespace Verif.Search.Props
open Verif.Search Verif.Search.Spec
open Verif.Event (LabeledCrossing sortAndDedup nextTime gridCells gridCells_chain gridCells_get Chain dedupeEps)

variable {F : Type} [Field F] [LinearOrder F] [IsStrictOrderedRing F]

/-! ### Termination -/

theorem gridCells_fuel {b step : F} (hstep : 0 < step) (m : Nat) : ∀ t : F, b - t ≤ m * step →
    ∀ n, m + 2 ≤ n → (gridCells b step n t).isSome := by
  induction m with
  | zero =>
    intro t hm n hn
    obtain ⟨n, rfl⟩ : ∃ k, n = k + 1 := ⟨n - 1, by omega⟩
    simp only [gridCells]
    rw [if_neg (by push_cast at hm; intro h; linarith)]
    rfl
  | succ m ih =>
    intro t hm n hn
    obtain ⟨n, rfl⟩ : ∃ k, n = k + 1 := ⟨n - 1, by omega⟩
    simp only [gridCells]
    split
    · rw [Option.isSome_map]
      apply ih _ _ _ (by omega)
      rw [Verif.Event.nextTime_eq_min]
      push_cast at hm
      rcases le_total (t + step) b with h | h
      · rw [min_eq_left h]; linarith
      · rw [min_eq_right h, sub_self]
        exact mul_nonneg (Nat.cast_nonneg m) hstep.le
    · rfl

/-- A number of iterations that is enough for every scan of a window not longer than `m` microdays. -/
theorem scan_fuel {a b step : F} {signal : F → F} {thr timeTol maxRes : F} {m : Nat}
    (hm : b - a ≤ m * minSegmentDays) {fuel : Nat} (hf : m + 2 ≤ fuel) :
    (scanLabelledCrossings fuel a b step signal thr timeTol maxRes).isSome := by
  rcases lt_or_ge a b with hab | hab
  · rw [scan_eq hab, Option.isSome_map]
    refine gridCells_fuel (effStep_pos step) m a (hm.trans ?_) fuel hf
    exact mul_le_mul_of_nonneg_left (le_max_right _ _) (Nat.cast_nonneg m)
  · unfold scanLabelledCrossings
    rw [if_pos hab]; rfl

/-- **C75 (termination).** The scan ends for every window, every signal and every step, the step zero
and negative steps included (compare `Event.Props.nonpositive_step_never_finishes` for the older
scan of `intervals.rs`). -/
theorem scan_always_finishes [Archimedean F] (a b step : F) (signal : F → F) (thr timeTol maxRes : F) :
    ∃ N, ∀ fuel, N ≤ fuel →
      (scanLabelledCrossings fuel a b step signal thr timeTol maxRes).isSome := by
  have hpos : (0 : F) < minSegmentDays := by unfold minSegmentDays; positivity
  obtain ⟨m, hm⟩ := Archimedean.arch (b - a) hpos
  rw [nsmul_eq_mul] at hm
  exact ⟨m + 2, fun fuel hf => scan_fuel hm hf⟩

example : ∃ N, ∀ fuel, N ≤ fuel →
    (scanLabelledCrossings fuel 60000 60365 0 (fun t : ℚ => t - 60100) 0 0 0).isSome :=
  scan_always_finishes ..

theorem fallback_isSome {signal : F → F} {thr : F} {cfg : Config F} {step a b : F} {m : Nat}
    (hm : b - a ≤ m * minSegmentDays) {fuel : Nat} (hf : m + 2 ≤ fuel) :
    (fallbackSegment fuel signal thr cfg step a b).isSome := scan_fuel hm hf

theorem segment_isSome {fit : Fit F} {signal : F → F} {thr : F} {cfg : Config F}
    {step pStart pEnd : F} {m fuel : Nat} (hf : m + 2 ≤ fuel) (k : Nat) :
    ∀ a b : F, b - a ≤ m * minSegmentDays →
    (segmentCrossings fit fuel signal thr cfg step pStart pEnd k a b).isSome := by
  induction k with
  | zero =>
    intro a b hm
    unfold segmentCrossings
    split
    · rfl
    split
    · exact fallback_isSome hm hf
    split
    · exact fallback_isSome hm hf
    split
    · split <;> exact fallback_isSome hm hf
    · unfold fromRoots
      dsimp only
      split
      · exact fallback_isSome hm hf
      · split
        · rfl
        · exact fallback_isSome hm hf
  | succ k ih =>
    intro a b hm
    unfold segmentCrossings
    split
    · rfl
    rename_i hlen
    have hlen : 0 < b - a := not_not.mp hlen
    split
    · exact fallback_isSome hm hf
    split
    · exact fallback_isSome hm hf
    split
    · split
      · dsimp only
        have h1 := ih a (a + (b - a) * (1 / 2)) (by linarith)
        have h2 := ih (a + (b - a) * (1 / 2)) b (by linarith)
        obtain ⟨l1, e1⟩ := Option.isSome_iff_exists.mp h1
        obtain ⟨l2, e2⟩ := Option.isSome_iff_exists.mp h2
        rw [e1, e2]; rfl
      · exact fallback_isSome hm hf
    · unfold fromRoots
      dsimp only
      split
      · exact fallback_isSome hm hf
      · split
        · rfl
        · exact fallback_isSome hm hf

/-- **C75 (termination).** The segmented search ends for every window, signal, fitted polynomial and
fallback step, as soon as the segment length is positive (the library always uses half a day). -/
theorem search_always_finishes [Archimedean F] (fit : Fit F) (pStart pEnd step : F) (signal : F → F)
    (thr : F) (cfg : Config F) (hseg : 0 < cfg.segmentLength) :
    ∃ N, ∀ fuel, N ≤ fuel →
      (findLabelledCrossings fit fuel pStart pEnd step signal thr cfg).isSome := by
  have hpos : (0 : F) < minSegmentDays := by unfold minSegmentDays; positivity
  obtain ⟨m, hm⟩ := Archimedean.arch (pEnd - pStart) hpos
  obtain ⟨m', hm'⟩ := Archimedean.arch (pEnd - pStart) hseg
  rw [nsmul_eq_mul] at hm hm'
  refine ⟨max (m + 2) (m' + 2), fun fuel hf => ?_⟩
  have hf1 : m + 2 ≤ fuel := (le_max_left _ _).trans hf
  unfold findLabelledCrossings
  split
  · rfl
  dsimp only
  split
  · rw [Option.isSome_map]
    exact scan_fuel hm hf1
  · rw [Option.isSome_map]
    have key : ∀ n (t : F), pStart ≤ t → (gridCells pEnd cfg.segmentLength n t).isSome →
        (segmentsLoop fit fuel signal thr cfg (cfg.scanStep.getD step) pStart pEnd n t).isSome := by
      intro n
      induction n with
      | zero => intro t _ h; exact h
      | succ n ih =>
        intro t ht h
        simp only [gridCells] at h
        unfold segmentsLoop
        by_cases htb : t < pEnd
        · rw [if_pos htb, Option.isSome_map] at h
          rw [if_pos htb]
          dsimp only
          have hn : nextTime pEnd cfg.segmentLength t ≤ pEnd := by
            rw [Verif.Event.nextTime_eq_min]; exact min_le_right _ _
          have hn2 : t ≤ nextTime pEnd cfg.segmentLength t := by
            rw [Verif.Event.nextTime_eq_min]; exact le_min (by linarith) htb.le
          obtain ⟨l1, e1⟩ := Option.isSome_iff_exists.mp
            (segment_isSome (fit := fit) (signal := signal) (thr := thr) (cfg := cfg)
              (step := cfg.scanStep.getD step) (pStart := pStart) (pEnd := pEnd) hf1 cfg.maxSplitDepth
              t (nextTime pEnd cfg.segmentLength t) (by linarith))
          obtain ⟨l2, e2⟩ := Option.isSome_iff_exists.mp (ih _ (ht.trans hn2) h)
          rw [e1, e2]; rfl
        · rw [if_neg htb]; rfl
    exact key fuel pStart le_rfl (gridCells_fuel hseg m' pStart hm' fuel ((le_max_right _ _).trans hf))

example (fit : Fit ℚ) (signal : ℚ → ℚ) : ∃ N, ∀ fuel, N ≤ fuel →
    (findLabelledCrossings fit fuel 60000 60365 (1 / 12) signal 0 (Config.ofPublic (1 / 10 ^ 9))).isSome :=
  search_always_finishes _ _ _ _ _ _ _ (by norm_num [Config.ofPublic])

/-! ### What is reported -/

/-- **C75 (soundness of the scan).** Every reported crossing lies in the window, is a root to the
tolerances, and its label tells the direction in which the signal passes; the list is strictly
increasing. -/
theorem scan_crossings_genuine (fuel : Nat) (a b step : F) (signal : F → F) (thr timeTol maxRes : F)
    (hw : machineEps < b - a) (hT : Fine a b (max timeTol machineEps)) (l : List (LabeledCrossing F))
    (h : scanLabelledCrossings fuel a b step signal thr timeTol maxRes = some l) :
    (∀ e ∈ l, a ≤ e.t ∧ e.t ≤ b ∧
      Located (fun t => signal t - thr) a b (max maxRes (1 / 10 ^ 12)) (max timeTol (1 / 2 ^ 52)) e.t ∧
      Labelled (fun t => signal t - thr) a b (max maxRes (1 / 10 ^ 12))
        (max (max step (1 / 10 ^ 6)) (1 / 500)) e.t e.direction) ∧
    l.Pairwise (fun u v => 1 / 10 ^ 8 ≤ v.t - u.t) := by
  refine ⟨scan_sound hw hT h, ?_⟩
  have hab : a < b := by have := machineEps_pos (F := F); linarith
  rw [scan_eq hab, Option.map_eq_some_iff] at h
  obtain ⟨cs, -, rfl⟩ := h
  exact sortAndDedup_sep _

/-- **C75 (no sampled change of side is missed).** When the signal lies on different sides of the
threshold at two consecutive instants of the scan grid, a crossing is reported less than 10⁻⁸ days
from that cell. Partial: it is assumed that the refinement of that cell answers (`brent_f64` gives up
after 100 iterations, and the crossing is then dropped without notice). -/
theorem scan_sign_change_reported_partial (fuel : Nat) (a b step : F) (signal : F → F)
    (thr timeTol maxRes : F) (hstep : 1 / 10 ^ 6 ≤ step) (hT : Fine a b (max timeTol machineEps))
    (l : List (LabeledCrossing F))
    (h : scanLabelledCrossings fuel a b step signal thr timeTol maxRes = some l)
    (k : Nat) (hk : a + k * step < b)
    (ho : Opposite (signal (a + k * step) - thr) (signal (min (a + (k + 1) * step) b) - thr))
    (hans : (brentF64 (a + k * step) (min (a + (k + 1) * step) b) (signal (a + k * step) - thr)
      (signal (min (a + (k + 1) * step) b) - thr) (fun t => signal t - thr)
      (max timeTol machineEps) (max maxRes polyZeroTol)).isSome) :
    ∃ e ∈ l, a + k * step - 1 / 10 ^ 8 < e.t ∧ e.t < min (a + (k + 1) * step) b + 1 / 10 ^ 8 := by
  have hpos : 0 < step := lt_of_lt_of_le (by positivity) hstep
  have hab : a < b := by
    have : 0 ≤ (k : F) * step := mul_nonneg (Nat.cast_nonneg k) hpos.le
    linarith
  have hmax : max step minSegmentDays = step := max_eq_left hstep
  have hcs : ∃ cs, gridCells b (max step minSegmentDays) fuel a = some cs := by
    rw [scan_eq hab, Option.map_eq_some_iff] at h
    obtain ⟨cs, hcs, -⟩ := h
    exact ⟨cs, hcs⟩
  obtain ⟨cs, hcs⟩ := hcs
  have hget := (gridCells_get b step hpos fuel a cs (by rw [← hmax]; exact hcs) k).1 hk
  obtain ⟨r, r1, r2, e, he, hre⟩ := scan_complete hab hT hcs h
    (a + k * step, min (a + (k + 1) * step) b) (List.mem_of_getElem? hget) ho hans
  refine ⟨e, he, ?_⟩
  unfold dedupeEps at hre
  obtain ⟨q1, q2⟩ := abs_lt.mp hre
  dsimp only at r1 r2
  exact ⟨by linarith, by linarith⟩

/-- **C75 (a sample exactly on the threshold is not missed).** A grid instant inside the window where
the signal is on the threshold to the tolerance, with the signal passing from not above to above (or
back) between the two probes around it, is reported to 10⁻⁸ days. -/
theorem scan_zero_sample_reported (fuel : Nat) (a b step : F) (signal : F → F)
    (thr timeTol maxRes : F) (hstep : 1 / 250 ≤ step) (l : List (LabeledCrossing F))
    (h : scanLabelledCrossings fuel a b step signal thr timeTol maxRes = some l)
    (k : Nat) (hlo : a < a + k * step - 1 / 1000) (hhi : a + k * step + 1 / 1000 < b)
    (hz : |signal (a + k * step) - thr| ≤ max maxRes (1 / 10 ^ 12))
    (ho : (signal (a + k * step - 1 / 1000) ≤ thr ∧ thr < signal (a + k * step + 1 / 1000)) ∨
      (thr < signal (a + k * step - 1 / 1000) ∧ signal (a + k * step + 1 / 1000) ≤ thr)) :
    ∃ e ∈ l, |a + k * step - e.t| < 1 / 10 ^ 8 := by
  have hpos : 0 < step := by linarith [show (0 : F) < 1 / 250 by norm_num]
  have h6 : (1 / 10 ^ 6 : F) ≤ step := le_trans (by norm_num) hstep
  have hab : a < b := by linarith [show (0 : F) < 1 / 1000 by norm_num]
  have hmax : max step minSegmentDays = step := max_eq_left h6
  rw [scan_eq hab, Option.map_eq_some_iff] at h
  obtain ⟨cs, hcs, rfl⟩ := h
  rw [hmax] at hcs ⊢
  have hk : a + k * step < b := by linarith [show (0 : F) < 1 / 1000 by norm_num]
  have hget := (gridCells_get b step hpos fuel a cs hcs k).1 hk
  set s := a + k * step with hs
  -- the probe of the code is 10⁻³ for such steps
  have hprobe : clampTo (step * (1 / 4)) (1 / 10 ^ 7) (1 / 10 ^ 3) = (1 / 1000 : F) := by
    unfold clampTo
    have h1 : (1 / 1000 : F) ≤ step * (1 / 4) := by linarith
    rw [if_neg (by rw [not_lt]; exact le_trans (by norm_num) h1)]
    split
    · norm_num
    · rename_i hh
      exact le_antisymm (le_trans (not_lt.mp hh) (by norm_num)) h1
  have hdir : ∃ d, endpointDirection (fun t => signal t - thr) s a b step = some d := by
    unfold endpointDirection
    dsimp only
    have hme : (machineEps : F) ≤ 1 / 1000 := le_trans eps12 (by norm_num)
    rw [hprobe, max_eq_left (by linarith), min_eq_left (by linarith), if_neg (by
      rw [not_le]; linarith [show (0 : F) < 1 / 1000 by norm_num])]
    have n1 : ¬ |s - a| ≤ machineEps := by
      intro hh
      have := (abs_le.mp hh).2
      linarith
    have n2 : ¬ |s - b| ≤ machineEps := by
      intro hh
      have := (abs_le.mp hh).1
      linarith
    rw [if_neg n1, if_neg n2]
    rcases ho with ho | ho
    · exact ⟨1, by rw [if_pos ⟨by linarith [ho.1], by linarith [ho.2]⟩]⟩
    · refine ⟨-1, ?_⟩
      rw [if_neg (fun hh => by linarith [hh.1, ho.1]), if_pos ⟨by linarith [ho.1], by linarith [ho.2]⟩]
  obtain ⟨d, hd⟩ := hdir
  refine sortAndDedup_near _ ⟨s, d⟩ ?_
  rw [List.mem_flatMap]
  refine ⟨_, List.mem_of_getElem? hget, ?_⟩
  unfold cellEvents
  refine List.mem_append_left _ (List.mem_append_left _ ?_)
  unfold sampleEvents
  have hc : Verif.Event.Spec.cellLo a step k = s := rfl
  dsimp only
  rw [hc, if_pos (by exact hz), hd]
  simp

/-! ### The segmented search -/

/-- Every pair of distinct instants the search works with is further apart than `f64::EPSILON`: the
window does not end within `2⁻⁵²` days after a segment boundary. Two different Modified Julian Dates
after 1858-11-18 are always that far apart in `f64`. -/
def Grained (cfg : Config F) (pStart pEnd : F) : Prop :=
  1 / 2 ^ 52 < cfg.segmentLength ∧ ∀ k : ℕ, pStart + k * cfg.segmentLength < pEnd →
    1 / 2 ^ 52 < pEnd - (pStart + k * cfg.segmentLength)

theorem segmentsLoop_ok {fit : Fit F} {fuel : Nat} {signal : F → F} {thr : F} {cfg : Config F}
    {step pStart pEnd : F} (hseg : 0 < cfg.segmentLength)
    (hT : Fine pStart pEnd (max cfg.timeTolerance machineEps)) (n : Nat) : ∀ (t : F)
    (l : List (LabeledCrossing F)) (cs : List (F × F)), pStart ≤ t → t ≤ pEnd →
    gridCells pEnd cfg.segmentLength n t = some cs →
    (∀ c ∈ cs, machineEps < c.2 - c.1) →
    segmentsLoop fit fuel signal thr cfg step pStart pEnd n t = some l →
    (∀ e ∈ l, pStart ≤ e.t ∧ e.t ≤ pEnd ∧ Genuine (fun t => signal t - thr) cfg step pStart pEnd e) ∧
    (Answers (fun t => signal t - thr) pStart pEnd (max cfg.timeTolerance machineEps)
      (max cfg.maxResidual polyZeroTol) → ∀ c ∈ cs, Opposite (signal c.1 - thr) (signal c.2 - thr) →
      ∃ e ∈ l, c.1 ≤ e.t ∧ e.t ≤ c.2) := by
  induction n with
  | zero => intro t l cs _ _ h; simp [gridCells] at h
  | succ n ih =>
    intro t l cs h1 h2 hcs hw h
    simp only [gridCells] at hcs
    unfold segmentsLoop at h
    by_cases htb : t < pEnd
    · rw [if_pos htb] at h
      simp only [htb, if_true, Option.map_eq_some_iff] at hcs
      obtain ⟨cs', hcs', rfl⟩ := hcs
      dsimp only at h
      rw [Option.bind_eq_some_iff] at h
      obtain ⟨l1, hl1, h⟩ := h
      rw [Option.map_eq_some_iff] at h
      obtain ⟨l2, hl2, rfl⟩ := h
      have hn : nextTime pEnd cfg.segmentLength t ≤ pEnd := by
        rw [Verif.Event.nextTime_eq_min]; exact min_le_right _ _
      have hn2 : t ≤ nextTime pEnd cfg.segmentLength t := by
        rw [Verif.Event.nextTime_eq_min]; exact le_min (by linarith) htb.le
      obtain ⟨s1, s2⟩ := segment_ok cfg.maxSplitDepth h1
        (hw (t, nextTime pEnd cfg.segmentLength t) (by simp)) hn (fine_sub h1 hn hT) hl1
      obtain ⟨r1, r2⟩ := ih _ l2 cs' (h1.trans hn2) hn hcs' (fun c hc => hw c (by simp [hc])) hl2
      refine ⟨fun e he => ?_, fun hans c hc ho => ?_⟩
      · rcases List.mem_append.mp he with he | he
        · obtain ⟨q1, q2, q3⟩ := s1 e he
          exact ⟨h1.trans q1, q2.trans hn, q3⟩
        · exact r1 e he
      · rcases List.mem_cons.mp hc with rfl | hc
        · obtain ⟨e, he, q⟩ := s2 hans ho
          exact ⟨e, List.mem_append_left _ he, q⟩
        · obtain ⟨e, he, q⟩ := r2 hans c hc ho
          exact ⟨e, List.mem_append_right _ he, q⟩
    · rw [if_neg htb] at h
      simp only [htb, if_false, Option.some.injEq] at hcs
      subst hcs
      cases h
      simp

theorem segmentsLoop_grid {fit : Fit F} {fuel : Nat} {signal : F → F} {thr : F} {cfg : Config F}
    {step pStart pEnd : F} (n : Nat) : ∀ (t : F) l,
    segmentsLoop fit fuel signal thr cfg step pStart pEnd n t = some l →
    (gridCells pEnd cfg.segmentLength n t).isSome := by
  induction n with
  | zero => intro t l h; cases h
  | succ n ih =>
    intro t l h
    unfold segmentsLoop at h
    simp only [gridCells]
    split
    · rename_i htb
      rw [if_pos htb] at h
      dsimp only at h
      rw [Option.bind_eq_some_iff] at h
      obtain ⟨l1, hl1, h⟩ := h
      rw [Option.map_eq_some_iff] at h
      obtain ⟨l2, hl2, rfl⟩ := h
      rw [Option.isSome_map]
      exact ih _ _ hl2
    · rfl

theorem grained_cells {cfg : Config F} {pStart pEnd : F} (hg : Grained cfg pStart pEnd) {n : Nat}
    {cs : List (F × F)} (hcs : gridCells pEnd cfg.segmentLength n pStart = some cs) :
    ∀ c ∈ cs, machineEps < c.2 - c.1 := by
  intro c hc
  have hseg : 0 < cfg.segmentLength := lt_trans (by positivity) hg.1
  obtain ⟨k, hk⟩ := List.getElem?_of_mem hc
  obtain ⟨g1, g2⟩ := gridCells_get pEnd cfg.segmentLength hseg n pStart cs hcs k
  by_cases hlt : pStart + k * cfg.segmentLength < pEnd
  · rw [g1 hlt] at hk
    simp only [Option.some.injEq] at hk
    subst hk
    show 1 / 2 ^ 52 < min (pStart + (k + 1) * cfg.segmentLength) pEnd - (pStart + k * cfg.segmentLength)
    rcases le_total (pStart + (k + 1) * cfg.segmentLength) pEnd with h | h
    · rw [min_eq_left h]
      have := hg.1
      have e : pStart + (k + 1) * cfg.segmentLength - (pStart + k * cfg.segmentLength)
          = cfg.segmentLength := by ring
      rw [e]; exact hg.1
    · rw [min_eq_right h]; exact hg.2 k hlt
  · rw [g2 hlt] at hk; cases hk

/-- **C76 (soundness).** Whatever polynomials the fitting crate answers with: every crossing reported
by the search lies in the window, is a root to the tolerances, and its label tells the direction in
which the signal passes; the list is strictly increasing; and the flag tells whether the signal
starts above the threshold. -/
theorem search_crossings_genuine (fit : Fit F) (fuel : Nat) (pStart pEnd step : F) (signal : F → F)
    (thr : F) (cfg : Config F) (hab : pStart < pEnd) (hg : Grained cfg pStart pEnd)
    (hT : Fine pStart pEnd (max cfg.timeTolerance machineEps)) (hbase : cfg.forceScanBaseline = false)
    (l : List (LabeledCrossing F)) (above : Bool)
    (h : findLabelledCrossings fit fuel pStart pEnd step signal thr cfg = some (l, above)) :
    (∀ e ∈ l, pStart ≤ e.t ∧ e.t ≤ pEnd ∧
      Located (fun t => signal t - thr) pStart pEnd (max cfg.maxResidual (1 / 10 ^ 12))
        (max cfg.timeTolerance (1 / 2 ^ 52)) e.t ∧
      Labelled (fun t => signal t - thr) pStart pEnd (max cfg.maxResidual (1 / 10 ^ 12))
        (max (max (cfg.scanStep.getD step) (1 / 10 ^ 6)) (1 / 500)) e.t e.direction) ∧
    l.Pairwise (fun u v => 1 / 10 ^ 8 ≤ v.t - u.t) ∧ (above = true ↔ thr < signal pStart) := by
  unfold findLabelledCrossings at h
  rw [if_neg (not_le.mpr hab)] at h
  dsimp only at h
  rw [hbase] at h
  simp only [Bool.false_eq_true, if_false, Option.map_eq_some_iff, Prod.mk.injEq] at h
  obtain ⟨l0, hl0, rfl, rfl⟩ := h
  have hseg : 0 < cfg.segmentLength := lt_trans (by positivity) hg.1
  refine ⟨?_, sortAndDedup_sep _, by simp⟩
  have hcs := segmentsLoop_grid _ _ _ hl0
  obtain ⟨cs, hcs⟩ := Option.isSome_iff_exists.mp hcs
  intro e he
  have := (segmentsLoop_ok hseg hT fuel pStart l0 cs le_rfl hab.le hcs (grained_cells hg hcs) hl0).1 e
    (sortAndDedup_subset _ _ he)
  exact ⟨this.1, this.2.1, this.2.2.1, this.2.2.2⟩

/-- **C76 (no change of side over a segment is missed).** Whatever polynomials the fitting crate
answers with (even roots that are all wrong, or no roots): when the signal lies on different sides of
the threshold at the two ends of a segment of the search, a crossing is reported less than 10⁻⁸ days
from that segment. Partial: it is assumed that the refinement of the scan answers on brackets with a
change of side; and two changes within one segment are left to the quality of the fit. -/
theorem search_sign_change_reported_partial (fit : Fit F) (fuel : Nat) (pStart pEnd step : F)
    (signal : F → F) (thr : F) (cfg : Config F) (hg : Grained cfg pStart pEnd)
    (hT : Fine pStart pEnd (max cfg.timeTolerance machineEps)) (hbase : cfg.forceScanBaseline = false)
    (hans : Answers (fun t => signal t - thr) pStart pEnd (max cfg.timeTolerance (1 / 2 ^ 52))
      (max cfg.maxResidual (1 / 10 ^ 12)))
    (l : List (LabeledCrossing F)) (above : Bool)
    (h : findLabelledCrossings fit fuel pStart pEnd step signal thr cfg = some (l, above))
    (k : Nat) (hk : pStart + k * cfg.segmentLength < pEnd)
    (ho : Opposite (signal (pStart + k * cfg.segmentLength) - thr)
      (signal (min (pStart + (k + 1) * cfg.segmentLength) pEnd) - thr)) :
    ∃ e ∈ l, pStart + k * cfg.segmentLength - 1 / 10 ^ 8 < e.t ∧
      e.t < min (pStart + (k + 1) * cfg.segmentLength) pEnd + 1 / 10 ^ 8 := by
  have hseg : 0 < cfg.segmentLength := lt_trans (by positivity) hg.1
  have hab : pStart < pEnd := by
    have : 0 ≤ (k : F) * cfg.segmentLength := mul_nonneg (Nat.cast_nonneg k) hseg.le
    linarith
  unfold findLabelledCrossings at h
  rw [if_neg (not_le.mpr hab)] at h
  dsimp only at h
  rw [hbase] at h
  simp only [Bool.false_eq_true, if_false, Option.map_eq_some_iff, Prod.mk.injEq] at h
  obtain ⟨l0, hl0, rfl, rfl⟩ := h
  have hcs := segmentsLoop_grid _ _ _ hl0
  obtain ⟨cs, hcs⟩ := Option.isSome_iff_exists.mp hcs
  have hget := (gridCells_get pEnd cfg.segmentLength hseg fuel pStart cs hcs k).1 hk
  obtain ⟨e, he, e1, e2⟩ := (segmentsLoop_ok hseg hT fuel pStart l0 cs le_rfl hab.le hcs
    (grained_cells hg hcs) hl0).2 hans _ (List.mem_of_getElem? hget) ho
  obtain ⟨z, hz, hze⟩ := sortAndDedup_near l0 e he
  refine ⟨z, hz, ?_⟩
  unfold dedupeEps at hze
  obtain ⟨q1, q2⟩ := abs_lt.mp hze
  have e1 : pStart + k * cfg.segmentLength ≤ e.t := e1
  have e2 : e.t ≤ min (pStart + (k + 1) * cfg.segmentLength) pEnd := e2
  exact ⟨by linarith, by linarith⟩

/-- **C76 (a window that ends on the other side is never reported without events).** -/
theorem search_not_empty_partial (fit : Fit F) (fuel : Nat) (pStart pEnd step : F) (signal : F → F)
    (thr : F) (cfg : Config F) (hab : pStart < pEnd) (hg : Grained cfg pStart pEnd)
    (hT : Fine pStart pEnd (max cfg.timeTolerance machineEps)) (hbase : cfg.forceScanBaseline = false)
    (hans : Answers (fun t => signal t - thr) pStart pEnd (max cfg.timeTolerance (1 / 2 ^ 52))
      (max cfg.maxResidual (1 / 10 ^ 12)))
    (l : List (LabeledCrossing F)) (above : Bool)
    (h : findLabelledCrossings fit fuel pStart pEnd step signal thr cfg = some (l, above))
    (ho : Opposite (signal pStart - thr) (signal pEnd - thr)) : l ≠ [] := by
  have hseg : 0 < cfg.segmentLength := lt_trans (by positivity) hg.1
  have h0 := h
  unfold findLabelledCrossings at h
  rw [if_neg (not_le.mpr hab)] at h
  dsimp only at h
  rw [hbase] at h
  simp only [Bool.false_eq_true, if_false, Option.map_eq_some_iff, Prod.mk.injEq] at h
  obtain ⟨l0, hl0, -, -⟩ := h
  obtain ⟨cs, hcs⟩ := Option.isSome_iff_exists.mp (segmentsLoop_grid _ _ _ hl0)
  obtain ⟨c, hc, hoc⟩ := exists_opposite_cell (g := fun t => signal t - thr)
    (gridCells_chain pEnd _ hseg fuel pStart hab.le cs hcs) ho
  obtain ⟨k, hk⟩ := List.getElem?_of_mem hc
  obtain ⟨g1, g2⟩ := gridCells_get pEnd cfg.segmentLength hseg fuel pStart cs hcs k
  by_cases hlt : pStart + k * cfg.segmentLength < pEnd
  · rw [g1 hlt] at hk
    simp only [Option.some.injEq] at hk
    subst hk
    obtain ⟨e, he, -⟩ := search_sign_change_reported_partial fit fuel pStart pEnd step signal thr cfg hg hT
      hbase hans l above h0 k hlt hoc
    exact List.ne_nil_of_mem he
  · rw [g2 hlt] at hk; cases hk

/-! ### A case that meets the hypotheses

Two days from MJD 60000, a signal rising through the threshold at 60000.7, public options, and a
fitting crate that never answers. -/

theorem ramp_fine : Fine (60000 : ℚ) 60002 (max (1 / 10 ^ 9) machineEps) := by
  intro x h1 h2
  rw [max_eq_left (le_trans eps12 (by norm_num)), abs_of_nonneg (by linarith)]
  unfold machineEps
  linarith

theorem ramp_grained : Grained (Config.ofPublic (1 / 10 ^ 9 : ℚ)) 60000 60002 := by
  refine ⟨by norm_num [Config.ofPublic], fun k hk => ?_⟩
  simp only [Config.ofPublic] at hk ⊢
  have : (k : ℚ) < 4 := by linarith
  have : k < 4 := by exact_mod_cast this
  interval_cases k <;> norm_num

theorem ramp_opposite : Opposite ((60000 + ((1 : ℕ) : ℚ) * (Config.ofPublic (1 / 10 ^ 9 : ℚ)).segmentLength) - 600007 / 10)
    (min (60000 + (((1 : ℕ) : ℚ) + 1) * (Config.ofPublic (1 / 10 ^ 9 : ℚ)).segmentLength) 60002 - 600007 / 10) := by
  refine Or.inl ?_
  norm_num [Config.ofPublic]

example (fuel : Nat) (l : List (LabeledCrossing ℚ)) (above : Bool)
    (h : findLabelledCrossings (fun _ _ _ _ _ => none) fuel 60000 60002 (1 / 12) (fun t : ℚ => t)
      (600007 / 10) (Config.ofPublic (1 / 10 ^ 9)) = some (l, above)) :
    (∃ e ∈ l, e.t < 60001 + 1 / 10 ^ 8) ∧ l.Pairwise (fun u v => 1 / 10 ^ 8 ≤ v.t - u.t) := by
  have hans : Answers (fun t : ℚ => t - 600007 / 10) 60000 60002 (max (1 / 10 ^ 9) (1 / 2 ^ 52))
      (max (1 / 10 ^ 10) (1 / 10 ^ 12)) := by
    refine ramp_answers (lt_of_lt_of_le (by norm_num) (le_max_left _ _))
      (le_trans (by norm_num) (le_max_left _ _)) ?_
    intro x h1 h2
    refine le_trans ?_ (le_max_left _ _)
    rw [abs_of_nonneg (by linarith)]
    unfold machineEps
    linarith
  constructor
  · obtain ⟨e, he, -, h2⟩ := search_sign_change_reported_partial _ fuel 60000 60002 (1 / 12) (fun t : ℚ => t)
      (600007 / 10) (Config.ofPublic (1 / 10 ^ 9)) ramp_grained ramp_fine rfl hans l above h 1
      (by norm_num [Config.ofPublic]) ramp_opposite
    refine ⟨e, he, lt_of_lt_of_le h2 ?_⟩
    norm_num [Config.ofPublic]
  · exact (search_crossings_genuine _ fuel 60000 60002 (1 / 12) _ _ _ (by norm_num) ramp_grained ramp_fine
      rfl l above h).2.1

end Verif.Search.Props
