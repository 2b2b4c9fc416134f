import Verif.RootFinding.Golden
import Mathlib.Topology.Order.IntermediateValue
import Mathlib.Topology.MetricSpace.Pseudo.Defs
import Mathlib.Topology.Instances.Real.Lemmas
import Mathlib.Tactic.NormNum

/-
C21, C22, C60: root refinement, extremum refinement, and the extrema scan.
-/
namespace Verif.RootFinding.Props
open Verif.RootFinding Verif.RootFinding.Spec

section Field
variable {F : Type} [Field F] [LinearOrder F] [IsStrictOrderedRing F]

/-- A signum as IEEE defines it, with `+0.0 ↦ 1`. -/
def sgn (x : F) : Int := if x < 0 then -1 else 1

omit [IsStrictOrderedRing F] in
theorem sgn_isSignum : IsSignum (sgn : F → Int) :=
  ⟨fun x h => by simp [sgn, not_lt.mpr h.le], fun x h => by simp [sgn, h]⟩

/-- C21. Bisection refuses a bracket exactly when the ends are both clearly non-zero and of one
sign. -/
theorem bisection_none_iff {sg : F → Int} (hsg : IsSignum sg) (lo hi : F) (f : F → F) :
    bisection sg lo hi f = none ↔
      1 / 10 ^ 12 ≤ |f lo| ∧ 1 / 10 ^ 12 ≤ |f hi| ∧
        ((0 < f lo ∧ 0 < f hi) ∨ (f lo < 0 ∧ f hi < 0)) := by
  have key : ∀ x : F, |x| < fEps ↔ ¬ (1 / 10 ^ 12 ≤ |x|) := fun x => by rw [not_le]; rfl
  unfold bisection
  dsimp only
  by_cases h1 : |f lo| < fEps
  · simp [h1, (key _).mp h1]
    intro h; exact absurd h (by simpa using (key _).mp h1)
  by_cases h2 : |f hi| < fEps
  · simp only [h1, h2, if_false, if_true]
    simp only [reduceCtorEq, false_iff]
    intro h; exact (key _).mp h2 h.2.1
  rw [if_neg h1, if_neg h2]
  have h1' := h1
  have h2' := h2
  rw [key, not_not] at h1' h2'
  rw [← sameSign_iff hsg (ne_zero_of_not_lt h1) (ne_zero_of_not_lt h2)]
  simp [h1', h2']
  constructor
  · intro h
    refine ⟨by simpa using h1', by simpa using h2', h⟩
  · exact fun h => h.2.2

/-- C21. For every function and every pair of ends, whatever bisection returns lies between the
ends, and it is either a point where `|f| < 1e-12` or the midpoint of a sub-bracket over which `f`
changes sign and which is shorter than `1e-9` or is the initial bracket halved 80 times. -/
theorem bisection_sound {sg : F → Int} (hsg : IsSignum sg) (lo hi : F) (f : F → F) {r : F}
    (h : bisection sg lo hi f = some r) :
    r ∈ Set.uIcc lo hi ∧
    (|f r| < 1 / 10 ^ 12 ∨
      ∃ x y, x ∈ Set.uIcc lo hi ∧ y ∈ Set.uIcc lo hi ∧ SignChange f x y ∧ r = (x + y) / 2 ∧
        (|y - x| < 1 / 10 ^ 9 ∨ |y - x| * 2 ^ 80 = |hi - lo|)) := by
  unfold bisection at h
  dsimp only at h
  split at h
  · rename_i h1
    cases h
    exact ⟨Set.left_mem_uIcc, Or.inl h1⟩
  · rename_i h1
    split at h
    · rename_i h2
      cases h
      exact ⟨Set.right_mem_uIcc, Or.inl h2⟩
    · rename_i h2
      split at h
      · cases h
      · rename_i h3
        cases h
        have n1 := ne_zero_of_not_lt h1
        have n2 := ne_zero_of_not_lt h2
        rw [sameSign_iff hsg n1 n2] at h3
        push Not at h3
        have hs : SignChange f lo hi := by
          rcases lt_or_gt_of_ne n1 with h0 | h0
          · exact Or.inl ⟨h0.le, h3.2 h0⟩
          · exact Or.inr ⟨h3.1 h0, h0.le⟩
        obtain ⟨x, y, hx, hy, hxy, he, hw⟩ := bisectLoop_spec hsg f defaultTol lo hi bisectMaxIter
          lo hi Set.left_mem_uIcc Set.right_mem_uIcc n1 n2 hs
        rw [he]
        refine ⟨mid_mem_uIcc hx hy, ?_⟩
        rcases hw with hw | hw
        · exact Or.inl hw
        · exact Or.inr ⟨x, y, hx, hy, hxy, rfl, hw⟩

theorem brentInit_live {f : F → F} {lo hi : F} (h1 : f lo ≠ 0) (h2 : f hi ≠ 0)
    (hs : SignChange f lo hi) : Live f lo hi (brentInit lo hi (f lo) (f hi)) := by
  unfold brentInit
  split
  · rename_i h
    exact ⟨Set.left_mem_uIcc, Set.right_mem_uIcc, rfl, rfl, hs, h2, h.le⟩
  · rename_i h
    exact ⟨Set.right_mem_uIcc, Set.left_mem_uIcc, rfl, rfl, hs.symm, h1, not_lt.mp h⟩

/-- C21. For every function, every pair of ends and every tolerance, whatever Brent's method
returns lies between the ends; it is either a point where `|f| < 1e-12`, or `f` still changes sign
between it and another point of the bracket at which `|f|` is at least as large. -/
theorem brent_sound {sg : F → Int} (hsg : IsSignum sg) (lo hi tol : F) (f : F → F) {r : F}
    (h : brentEngine sg lo hi (f lo) (f hi) f tol = some r) :
    r ∈ Set.uIcc lo hi ∧
    (|f r| < 1 / 10 ^ 12 ∨
      ∃ c ∈ Set.uIcc lo hi, SignChange f r c ∧ |f r| ≤ |f c|) := by
  unfold brentEngine at h
  split at h
  · rename_i h1
    cases h
    exact ⟨Set.left_mem_uIcc, Or.inl h1⟩
  · rename_i h1
    split at h
    · rename_i h2
      cases h
      exact ⟨Set.right_mem_uIcc, Or.inl h2⟩
    · rename_i h2
      split at h
      · cases h
      · rename_i h3
        cases h
        have n1 := ne_zero_of_not_lt h1
        have n2 := ne_zero_of_not_lt h2
        rw [sameSign_iff hsg n1 n2] at h3
        push Not at h3
        have hs : SignChange f lo hi := by
          rcases lt_or_gt_of_ne n1 with h0 | h0
          · exact Or.inl ⟨h0.le, h3.2 h0⟩
          · exact Or.inr ⟨h3.1 h0, h0.le⟩
        have hl := brentLoop_live hsg (tol := tol) brentMaxIter _ (brentInit_live n1 n2 hs)
        refine ⟨hl.b_mem, Or.inr ⟨_, hl.c_mem, hl.sign, ?_⟩⟩
        rw [← hl.fb_eq, ← hl.fc_eq]
        exact hl.best

/-- C21. When the initial bracket is at most a hundred tolerances wide, Brent's method always
converges: the point returned has `|f| < 1e-12` or lies within two tolerances of a point across
which `f` changes sign. -/
theorem brent_converges {sg : F → Int} (hsg : IsSignum sg) (lo hi tol : F) (f : F → F) {r : F}
    (htol : 0 < tol) (hw : |hi - lo| ≤ 100 * tol)
    (h : brentEngine sg lo hi (f lo) (f hi) f tol = some r) :
    |f r| < 1 / 10 ^ 12 ∨ ∃ c ∈ Set.uIcc lo hi, SignChange f r c ∧ |c - r| ≤ 2 * tol := by
  unfold brentEngine at h
  split at h
  · rename_i h1
    cases h
    exact Or.inl h1
  · rename_i h1
    split at h
    · rename_i h2
      cases h
      exact Or.inl h2
    · rename_i h2
      split at h
      · cases h
      · rename_i h3
        cases h
        have n1 := ne_zero_of_not_lt h1
        have n2 := ne_zero_of_not_lt h2
        rw [sameSign_iff hsg n1 n2] at h3
        push Not at h3
        have hs : SignChange f lo hi := by
          rcases lt_or_gt_of_ne n1 with h0 | h0
          · exact Or.inl ⟨h0.le, h3.2 h0⟩
          · exact Or.inr ⟨h3.1 h0, h0.le⟩
        have hi0 := brentInit_live n1 n2 hs
        have hl := brentLoop_live hsg (tol := tol) brentMaxIter _ hi0
        have hwid : |(brentInit lo hi (f lo) (f hi)).c - (brentInit lo hi (f lo) (f hi)).b| ≤
            ((brentMaxIter : ℕ) : F) * tol := by
          have : ((brentMaxIter : ℕ) : F) = 100 := by norm_num [brentMaxIter]
          rw [this]
          unfold brentInit
          split
          · exact hw
          · rw [abs_sub_comm]; exact hw
        rcases brentLoop_converges hsg htol brentMaxIter _ hi0 (Or.inl hwid) with hc | hc
        · left; rw [hl.fb_eq] at hc; exact hc
        · exact Or.inr ⟨_, hl.c_mem, hl.sign, hc⟩

/-- C21. The entry points on periods are the same solver, shifted: the root reported for
`[start, stop]` lies in that period and straddles a sign change of `f`, whatever the tolerance. -/
theorem brentTol_sound {sg : F → Int} (hsg : IsSignum sg) (start stop tol : F) (f : F → F) {r : F}
    (h : brentTol sg start stop (f start) (f stop) f tol = some r) :
    r ∈ Set.uIcc start stop ∧
    (|f r| < 1 / 10 ^ 12 ∨ ∃ c ∈ Set.uIcc start stop, SignChange f r c ∧ |f r| ≤ |f c|) := by
  unfold brentTol brentCore at h
  obtain ⟨o, ho, hr⟩ := Option.map_eq_some_iff.mp h
  subst hr
  have h0 : f start = (fun off => f (start + off)) 0 := by simp
  have h1 : f stop = (fun off => f (start + off)) (stop - start) := by simp
  rw [h0, h1] at ho
  have shift : ∀ x : F, x ∈ Set.uIcc 0 (stop - start) → start + x ∈ Set.uIcc start stop := by
    intro x hx
    rw [Set.mem_uIcc] at *
    rcases hx with hx | hx
    · left; constructor <;> linarith [hx.1, hx.2]
    · right; constructor <;> linarith [hx.1, hx.2]
  obtain ⟨hm, hc⟩ := brent_sound hsg _ _ _ (fun off => f (start + off)) ho
  refine ⟨shift o hm, ?_⟩
  rcases hc with hc | ⟨c, hc, hs, hb⟩
  · exact Or.inl hc
  · exact Or.inr ⟨start + c, shift c hc, hs, hb⟩

/-- C21. Brent's method refuses a bracket exactly as bisection does. -/
theorem brent_none_iff {sg : F → Int} (hsg : IsSignum sg) (lo hi tol flo fhi : F) (f : F → F) :
    brentEngine sg lo hi flo fhi f tol = none ↔
      1 / 10 ^ 12 ≤ |flo| ∧ 1 / 10 ^ 12 ≤ |fhi| ∧
        ((0 < flo ∧ 0 < fhi) ∨ (flo < 0 ∧ fhi < 0)) := by
  have key : ∀ x : F, |x| < fEps ↔ ¬ (1 / 10 ^ 12 ≤ |x|) := fun x => by rw [not_le]; rfl
  unfold brentEngine
  by_cases h1 : |flo| < fEps
  · simp only [h1, if_true, reduceCtorEq, false_iff]
    intro h; exact (key _).mp h1 h.1
  by_cases h2 : |fhi| < fEps
  · simp only [h1, h2, if_false, if_true, reduceCtorEq, false_iff]
    intro h; exact (key _).mp h2 h.2.1
  rw [if_neg h1, if_neg h2]
  have h1' := h1
  have h2' := h2
  rw [key, not_not] at h1' h2'
  rw [← sameSign_iff hsg (ne_zero_of_not_lt h1) (ne_zero_of_not_lt h2)]
  by_cases h3 : sameSign sg flo fhi = true
  · simp only [h3, if_true, true_iff]; exact ⟨h1', h2', trivial⟩
  · simp only [h3, if_false, reduceCtorEq, false_iff]; exact fun h => by simp at h

/-- C22. Golden-section minimisation returns a point of the interval, for every function and every
tolerance (also zero or negative ones). -/
theorem minimize_in_interval (f : F → F) (tol a b : F) (h : a ≤ b) :
    (minimizeTol phi a b f tol).1 ∈ Set.Icc a b ∧
    (minimizeTol phi a b f tol).2 = f (minimizeTol phi a b f tol).1 :=
  ⟨minimizeTol_mem phi_golden f tol h, rfl⟩

/-- C22. The same for maximisation. -/
theorem maximize_in_interval (f : F → F) (tol a b : F) (h : a ≤ b) :
    (maximizeTol phi a b f tol).1 ∈ Set.Icc a b ∧
    (maximizeTol phi a b f tol).2 = f (maximizeTol phi a b f tol).1 :=
  ⟨maximizeTol_mem phi_golden f tol h, rfl⟩

/-- C22. For a function with a single valley, the point returned is within half the tolerance of
the valley, or within `2e-13` of the length of the interval when the tolerance asked for is finer
than the rounded golden-ratio constant can deliver. -/
theorem minimize_accurate (f : F → F) (tol a b m : F) (hv : Valley f a b m) :
    |(minimizeTol phi a b f tol).1 - m| ≤ max (tol / 2) (2 / 10 ^ 13 * (b - a)) :=
  minimizeTol_accurate phi_golden hv

/-- C22. The same for a single peak. -/
theorem maximize_accurate (f : F → F) (tol a b m : F) (hv : Peak f a b m) :
    |(maximizeTol phi a b f tol).1 - m| ≤ max (tol / 2) (2 / 10 ^ 13 * (b - a)) :=
  maximizeTol_accurate phi_golden hv

/-- A parabola has a single valley: the hypotheses of `minimize_accurate` are met. -/
example : Valley (fun t : ℚ => (t - 1 / 3) ^ 2) 0 2 (1 / 3) := by
  refine ⟨by norm_num, by norm_num, ?_, ?_⟩
  · intro x hx y hy hxy
    have := hx.1; have := hx.2; have := hy.2
    show (y - 1 / 3) ^ 2 < (x - 1 / 3) ^ 2
    nlinarith
  · intro x hx y hy hxy
    have := hx.1; have := hx.2; have := hy.1
    show (x - 1 / 3) ^ 2 < (y - 1 / 3) ^ 2
    nlinarith

/-- A bracket that meets the hypotheses of the root theorems. -/
example : IsSignum (sgn : ℚ → Int) ∧
    bisection sgn 0 1 (fun t : ℚ => t - 1 / 3) ≠ none ∧
    brentEngine sgn 0 1 (-1 / 3 : ℚ) (2 / 3) (fun t : ℚ => t - 1 / 3) (1 / 100) ≠ none := by
  refine ⟨sgn_isSignum, ?_, ?_⟩
  · rw [Ne, bisection_none_iff sgn_isSignum]; norm_num
  · rw [Ne, brent_none_iff sgn_isSignum]; norm_num

/-! ### C60: the extrema scan -/

/-- C60. With enough fuel the scan finishes, for every function, interval and step. -/
theorem extrema_terminates [Archimedean F] (start stop step tol : F) (f : F → F) :
    ∃ n, ∀ fuel, n < fuel → ∃ l, findExtremaTol phi fuel start stop step f tol = some l := by
  unfold findExtremaTol
  by_cases h : step ≤ 0 ∨ start ≥ stop
  · exact ⟨0, fun fuel _ => ⟨[], by rw [if_pos h]⟩⟩
  · push Not at h
    obtain ⟨n, hn⟩ := exists_nat_ge ((stop - nextSample stop step start) / step)
    refine ⟨n + 1, fun fuel hf => ?_⟩
    rw [if_neg (by push Not; exact h)]
    obtain ⟨l, hl⟩ := extremaLoop_finishes phi f stop step tol h.1 n start
      (nextSample stop step start) (decide (f (nextSample stop step start) > f start)) []
      ((div_le_iff₀ h.1).mp hn) fuel hf
    exact ⟨_, by dsimp only; rw [hl]; rfl⟩

/-- C60. The extrema are reported in time order. -/
theorem extrema_sorted (fuel : Nat) (start stop step tol : F) (f : F → F) {l : List (Extremum F)}
    (h : findExtremaTol phi fuel start stop step f tol = some l) :
    l.Pairwise (fun a b => a.t ≤ b.t) := by
  unfold findExtremaTol at h
  split at h
  · cases h; exact List.Pairwise.nil
  · obtain ⟨l', _, rfl⟩ := Option.map_eq_some_iff.mp h
    have := List.pairwise_mergeSort (le := fun a b : Extremum F => decide (a.t ≤ b.t))
      (fun a b c h1 h2 => by simp only [decide_eq_true_eq] at *; exact h1.trans h2)
      (fun a b => by simp only [Bool.or_eq_true, decide_eq_true_eq]; exact le_total _ _) l'
    exact this.imp (fun h => by simpa using h)

/-- C60. Every extremum reported lies in the period, carries the value of the function there, and
comes from three consecutive samples, at most a step apart, whose values rise then do not rise (a
maximum) or do not rise then rise (a minimum). -/
theorem extrema_sound (fuel : Nat) (start stop step tol : F) (f : F → F) {l : List (Extremum F)}
    (h : findExtremaTol phi fuel start stop step f tol = some l) {x : Extremum F} (hx : x ∈ l) :
    x.value = f x.t ∧ ∃ t0 t1 t2, start ≤ t0 ∧ t0 < t1 ∧ t1 < t2 ∧ t2 ≤ stop ∧ t1 ≤ t0 + step ∧
      t2 ≤ t1 + step ∧ t0 ≤ x.t ∧ x.t ≤ t2 ∧
      ((x.kind = .maximum ∧ f t0 < f t1 ∧ f t2 ≤ f t1) ∨
       (x.kind = .minimum ∧ f t1 ≤ f t0 ∧ f t1 < f t2)) := by
  unfold findExtremaTol at h
  split at h
  · cases h; simp at hx
  · rename_i hc
    push Not at hc
    obtain ⟨l', hl', rfl⟩ := Option.map_eq_some_iff.mp h
    have hx' : x ∈ l' := by simpa [List.mem_mergeSort] using hx
    have h01 : start < nextSample stop step start := by
      unfold nextSample; split
      · linarith [hc.1]
      · exact hc.2
    obtain ⟨t0, t1, t2, a1, a2, a3, a4, a5, a6, a7, a8⟩ :=
      extremaLoop_justified phi f start stop step tol fuel _ _ _ _ _ le_rfl h01
        nextSample_le_add rfl (by simp) hl' x hx'
    have hmem : x.t ∈ Set.Icc t0 t2 := by
      rcases a8 with ⟨_, _, _, e⟩ | ⟨_, _, _, e⟩
      · rw [e]; exact maximizeTol_mem phi_golden f tol (a2.trans a3).le
      · rw [e]; exact minimizeTol_mem phi_golden f tol (a2.trans a3).le
    refine ⟨a7, t0, t1, t2, a1, a2, a3, a4, a5, a6, hmem.1, hmem.2, ?_⟩
    rcases a8 with ⟨k, p, q, _⟩ | ⟨k, p, q, _⟩
    · exact Or.inl ⟨k, p, q⟩
    · exact Or.inr ⟨k, p, q⟩

/-- C60, peaks. A peak at least one step away from both ends of the period, with the function rising
over the two steps before it and falling over the two steps after it, is reported as a maximum, to
the accuracy of the refinement. -/
theorem extrema_peak_found_partial (fuel : Nat) (start stop step tol m : F) (f : F → F)
    (hstep : 0 < step) (h1 : start + step ≤ m) (h2 : m + step ≤ stop)
    (hl : LocalPeak f start stop step m) {l : List (Extremum F)}
    (h : findExtremaTol phi fuel start stop step f tol = some l) :
    ∃ x ∈ l, x.kind = .maximum ∧ x.value = f x.t ∧
      |x.t - m| ≤ max (tol / 2) (2 / 10 ^ 13 * (2 * step)) := by
  unfold findExtremaTol at h
  rw [if_neg (by push Not; exact ⟨hstep, by linarith⟩)] at h
  obtain ⟨l', hl', rfl⟩ := Option.map_eq_some_iff.mp h
  have hn : nextSample stop step start = start + step := by
    unfold nextSample; rw [if_pos (by linarith)]
  rw [hn] at hl'
  obtain ⟨x, hx, h3⟩ := extremaLoop_complete phi_golden f start stop step tol m hstep h2 hl fuel
    _ _ _ _ _ le_rfl (by linarith) le_rfl rfl (Or.inl h1) hl'
  exact ⟨x, by simpa [List.mem_mergeSort] using hx, h3⟩

/-- C60, valleys. -/
theorem extrema_valley_found_partial (fuel : Nat) (start stop step tol m : F) (f : F → F)
    (hstep : 0 < step) (h1 : start + step ≤ m) (h2 : m + step ≤ stop)
    (hl : LocalValley f start stop step m) {l : List (Extremum F)}
    (h : findExtremaTol phi fuel start stop step f tol = some l) :
    ∃ x ∈ l, x.kind = .minimum ∧ x.value = f x.t ∧
      |x.t - m| ≤ max (tol / 2) (2 / 10 ^ 13 * (2 * step)) := by
  unfold findExtremaTol at h
  rw [if_neg (by push Not; exact ⟨hstep, by linarith⟩)] at h
  obtain ⟨l', hl', rfl⟩ := Option.map_eq_some_iff.mp h
  have hn : nextSample stop step start = start + step := by
    unfold nextSample; rw [if_pos (by linarith)]
  rw [hn] at hl'
  obtain ⟨x, hx, h3⟩ := extremaLoop_complete_min phi_golden f start stop step tol m hstep h2 hl fuel
    _ _ _ _ _ le_rfl (by linarith) le_rfl rfl (Or.inl h1) hl'
  exact ⟨x, by simpa [List.mem_mergeSort] using hx, h3⟩

/-- C60, the limit of the scan. A peak inside the first step is not reported when the function is
already lower at the end of that step: here the only peak, at `1/4`, is lost. -/
theorem peak_in_first_step_missed (tol : F) (fuel : Nat) :
    Peak (fun t : F => -(t - 1 / 4) ^ 2) 0 2 (1 / 4) ∧
    ∀ l, findExtremaTol phi fuel 0 2 1 (fun t : F => -(t - 1 / 4) ^ 2) tol = some l → l = [] := by
  constructor
  · refine ⟨by norm_num, by norm_num, ?_, ?_⟩
    · intro x hx y hy hxy
      have := hx.1; have := hx.2; have := hy.2
      show -(x - 1 / 4) ^ 2 < -(y - 1 / 4) ^ 2
      nlinarith
    · intro x hx y hy hxy
      have := hx.1; have := hx.2; have := hy.1
      show -(y - 1 / 4) ^ 2 < -(x - 1 / 4) ^ 2
      nlinarith
  · intro l h
    unfold findExtremaTol at h
    rw [if_neg (by norm_num)] at h
    have n1 : nextSample (2 : F) 1 0 = 1 := by norm_num [nextSample]
    have n2 : nextSample (2 : F) 1 1 = 2 := by norm_num [nextSample]
    have n3 : nextSample (2 : F) 1 2 = 2 := by norm_num [nextSample]
    match fuel with
    | 0 => simp [extremaLoop] at h
    | 1 =>
      simp only [n1, extremaLoop, n2] at h
      norm_num at h
      cases h
    | k + 2 =>
      simp only [n1, extremaLoop, n2, n3] at h
      norm_num [detect] at h
      exact h

end Field

/-! ### Consequences for continuous functions of a real variable -/

theorem zero_between {f : ℝ → ℝ} {x y : ℝ} (hc : ContinuousOn f (Set.uIcc x y))
    (hs : SignChange f x y) : ∃ z ∈ Set.uIcc x y, f z = 0 := by
  have h := intermediate_value_uIcc hc
  have : (0 : ℝ) ∈ Set.uIcc (f x) (f y) := by
    rw [Set.mem_uIcc]
    rcases hs with hs | hs
    · exact Or.inl hs
    · exact Or.inr hs
  obtain ⟨z, hz, hfz⟩ := h this
  exact ⟨z, hz, hfz⟩

/-- C21, for continuous functions. Bisection returns a point with `|f| < 1e-12` or a point within
`5e-10`, or within the initial width over `2^81`, of a true zero. -/
theorem bisection_near_zero {sg : ℝ → Int} (hsg : IsSignum sg) (lo hi : ℝ) (f : ℝ → ℝ)
    (hf : ContinuousOn f (Set.uIcc lo hi)) {r : ℝ} (h : bisection sg lo hi f = some r) :
    |f r| < 1 / 10 ^ 12 ∨
      ∃ z ∈ Set.uIcc lo hi, f z = 0 ∧ |r - z| ≤ max (1 / 10 ^ 9 / 2) (|hi - lo| / 2 ^ 81) := by
  obtain ⟨_, h1 | ⟨x, y, hx, hy, hs, hr, hw⟩⟩ := bisection_sound hsg lo hi f h
  · exact Or.inl h1
  · right
    have hsub := Set.uIcc_subset_uIcc hx hy
    obtain ⟨z, hz, hfz⟩ := zero_between (hf.mono hsub) hs
    refine ⟨z, hsub hz, hfz, ?_⟩
    have hd : |r - z| ≤ |y - x| / 2 := by
      rw [hr]
      rw [Set.mem_uIcc] at hz
      rcases le_total x y with hxy | hxy
      · rw [abs_of_nonneg (sub_nonneg.mpr hxy), abs_le]
        rcases hz with hz | hz <;> constructor <;> linarith [hz.1, hz.2]
      · rw [abs_of_nonpos (sub_nonpos.mpr hxy), abs_le]
        rcases hz with hz | hz <;> constructor <;> linarith [hz.1, hz.2]
    rcases hw with hw | hw
    · exact le_max_of_le_left (by linarith)
    · refine le_max_of_le_right ?_
      rw [← hw]
      refine hd.trans (le_of_eq ?_)
      rw [show (2 : ℝ) ^ 81 = 2 ^ 80 * 2 by norm_num]
      field_simp

/-- C21, for continuous functions. With a tolerance of at least a hundredth of the bracket, Brent's
method returns a point with `|f| < 1e-12` or within two tolerances of a true zero. -/
theorem brent_near_zero {sg : ℝ → Int} (hsg : IsSignum sg) (lo hi tol : ℝ) (f : ℝ → ℝ)
    (hf : ContinuousOn f (Set.uIcc lo hi)) (htol : 0 < tol) (hw : |hi - lo| ≤ 100 * tol) {r : ℝ}
    (h : brentEngine sg lo hi (f lo) (f hi) f tol = some r) :
    |f r| < 1 / 10 ^ 12 ∨ ∃ z ∈ Set.uIcc lo hi, f z = 0 ∧ |r - z| ≤ 2 * tol := by
  have hmem := (brent_sound hsg lo hi tol f h).1
  rcases brent_converges hsg lo hi tol f htol hw h with h1 | ⟨c, hc, hs, hd⟩
  · exact Or.inl h1
  · right
    have hsub := Set.uIcc_subset_uIcc hmem hc
    obtain ⟨z, hz, hfz⟩ := zero_between (hf.mono hsub) hs
    refine ⟨z, hsub hz, hfz, ?_⟩
    rw [Set.mem_uIcc] at hz
    obtain ⟨d1, d2⟩ := abs_le.mp hd
    rw [abs_le]
    rcases hz with hz | hz <;> constructor <;> linarith [hz.1, hz.2]

end Verif.RootFinding.Props
