import Verif.Provider.Model
import Verif.Sky.Azimuth
import Verif.RootFinding.Props

/-
The extrema search run with a closure that keeps a state gives what it gives for a plain function,
as long as the closure answers with that function whenever it is called near its last call.
-/
namespace Verif.Provider
open Verif.Sky Verif.Sky.Props
open Verif.RootFinding

variable {S : Type}

/-- Called at `t` after `u`, both within `w` of each other and inside `[a, b]`, the closure returns
`g t`. -/
structure Simulates (ev : S → ℝ → S × ℝ) (g : ℝ → ℝ) (R : S → ℝ → Prop) (a b w : ℝ) : Prop where
  step : ∀ s u t, R s u → u ∈ Set.Icc a b → t ∈ Set.Icc a b → |t - u| ≤ w →
    (ev s t).2 = g t ∧ R (ev s t).1 t

theorem Simulates.inside {ev : S → ℝ → S × ℝ} {g : ℝ → ℝ} {R : S → ℝ → Prop} {a b w A B : ℝ}
    (h : Simulates ev g R a b w) (hA : a ≤ A) (hB : B ≤ b) (hw : B - A ≤ w) {s : S} {u t : ℝ}
    (hr : R s u) (hu : u ∈ Set.Icc A B) (ht : t ∈ Set.Icc A B) :
    (ev s t).2 = g t ∧ R (ev s t).1 t := by
  refine h.step s u t hr ⟨hA.trans hu.1, hu.2.trans hB⟩ ⟨hA.trans ht.1, ht.2.trans hB⟩ ?_
  rw [abs_le]
  constructor <;> linarith [hu.1, hu.2, ht.1, ht.2]

theorem Simulates.neg {ev : S → ℝ → S × ℝ} {g : ℝ → ℝ} {R : S → ℝ → Prop} {a b w : ℝ}
    (h : Simulates ev g R a b w) :
    Simulates (fun s t => ((ev s t).1, -(ev s t).2)) (fun t => -g t) R a b w := by
  refine ⟨fun s u t hr hu ht hd => ?_⟩
  obtain ⟨h1, h2⟩ := h.step s u t hr hu ht hd
  exact ⟨by simp only [h1], h2⟩

variable {ev : S → ℝ → S × ℝ} {g : ℝ → ℝ} {R : S → ℝ → Prop} {a b w A B : ℝ}

theorem goldenStepM_sim {ph : ℝ} (h0 : 0 ≤ ph) (h1 : ph ≤ 1) (h : Simulates ev g R a b w)
    (hA : a ≤ A) (hB : B ≤ b) (hw : B - A ≤ w) {s : S} {u : ℝ} (hr : R s u)
    (hu : u ∈ Set.Icc A B) {st : GoldenState ℝ} (hst : Hull A B st) :
    (goldenStepM ph ev s st).2 = goldenStep ph g st ∧
      ∃ v ∈ Set.Icc A B, R (goldenStepM ph ev s st).1 v := by
  have hull := goldenStep_hull h0 h1 g hst
  unfold goldenStepM goldenStep at *
  split
  · rename_i hlt
    rw [if_pos hlt] at hull
    have := h.inside hA hB hw hr hu hull.x1_mem
    refine ⟨?_, _, hull.x1_mem, this.2⟩
    simp only at this ⊢
    rw [this.1]
  · rename_i hlt
    rw [if_neg hlt] at hull
    have := h.inside hA hB hw hr hu hull.x2_mem
    refine ⟨?_, _, hull.x2_mem, this.2⟩
    simp only at this ⊢
    rw [this.1]

theorem goldenLoopM_sim {ph : ℝ} (h0 : 0 ≤ ph) (h1 : ph ≤ 1) (h : Simulates ev g R a b w)
    (hA : a ≤ A) (hB : B ≤ b) (hw : B - A ≤ w) (tol : ℝ) (n : Nat) :
    ∀ {s : S} {u : ℝ}, R s u → u ∈ Set.Icc A B → ∀ {st : GoldenState ℝ}, Hull A B st →
      (goldenLoopM ph ev tol n s st).2 = goldenLoop ph g tol n st ∧
        ∃ v ∈ Set.Icc A B, R (goldenLoopM ph ev tol n s st).1 v := by
  induction n with
  | zero => intro s u hr hu st _; exact ⟨rfl, u, hu, hr⟩
  | succ n ih =>
    intro s u hr hu st hst
    unfold goldenLoopM goldenLoop
    split
    · exact ⟨rfl, u, hu, hr⟩
    · obtain ⟨e, v, hv, hr'⟩ := goldenStepM_sim h0 h1 h hA hB hw hr hu hst
      rw [e]
      exact ih hr' hv (goldenStep_hull h0 h1 g hst)

theorem minimizeM_sim {ph : ℝ} (h0 : 0 ≤ ph) (h1 : ph ≤ 1) (h : Simulates ev g R a b w)
    (hA : a ≤ A) (hB : B ≤ b) (hAB : A ≤ B) (hw : B - A ≤ w) (tol : ℝ) {s : S} {u : ℝ}
    (hr : R s u) (hu : u ∈ Set.Icc A B) :
    (minimizeM ph ev s A B tol).2 = minimizeTol ph A B g tol ∧
      (minimizeM ph ev s A B tol).2.1 ∈ Set.Icc A B ∧
      R (minimizeM ph ev s A B tol).1 (minimizeM ph ev s A B tol).2.1 := by
  have hi := goldenInit_hull h0 h1 g hAB
  have r1 := h.inside hA hB hw hr hu hi.x1_mem
  have r2 := h.inside hA hB hw r1.2 hi.x1_mem hi.x2_mem
  have e : (goldenInitM ph ev s A B).2 = goldenInit ph g A B := by
    unfold goldenInitM goldenInit at *
    simp only at r1 r2 ⊢
    rw [r1.1, r2.1]
  have rr : R (goldenInitM ph ev s A B).1 (goldenInit ph g A B).x2 := r2.2
  obtain ⟨e2, v, hv, r3⟩ := goldenLoopM_sim h0 h1 h hA hB hw tol goldenMaxIter rr hi.x2_mem hi
  have hull := goldenLoop_hull h0 h1 g tol goldenMaxIter _ hi
  have mem : ((goldenLoop ph g tol goldenMaxIter (goldenInit ph g A B)).lo +
      (goldenLoop ph g tol goldenMaxIter (goldenInit ph g A B)).hi) / 2 ∈ Set.Icc A B := by
    constructor
    · linarith [hull.lo_mem.1, hull.hi_mem.1]
    · linarith [hull.lo_mem.2, hull.hi_mem.2]
  have r4 := h.inside hA hB hw r3 hv mem
  unfold minimizeM minimizeTol
  simp only [e, e2]
  exact ⟨by rw [r4.1], mem, r4.2⟩

theorem maximizeM_sim {ph : ℝ} (h0 : 0 ≤ ph) (h1 : ph ≤ 1) (h : Simulates ev g R a b w)
    (hA : a ≤ A) (hB : B ≤ b) (hAB : A ≤ B) (hw : B - A ≤ w) (tol : ℝ) {s : S} {u : ℝ}
    (hr : R s u) (hu : u ∈ Set.Icc A B) :
    (maximizeM ph ev s A B tol).2 = maximizeTol ph A B g tol ∧
      (maximizeM ph ev s A B tol).2.1 ∈ Set.Icc A B ∧
      R (maximizeM ph ev s A B tol).1 (maximizeM ph ev s A B tol).2.1 := by
  obtain ⟨e, m, r⟩ := minimizeM_sim h0 h1 h.neg hA hB hAB hw tol hr hu
  have r2 := h.inside hA hB hw r m m
  refine ⟨?_, m, r2.2⟩
  unfold maximizeM maximizeTol
  simp only
  rw [r2.1, ← e]

theorem detectM_sim {ph : ℝ} (h0 : 0 ≤ ph) (h1 : ph ≤ 1) (h : Simulates ev g R a b w)
    (hA : a ≤ A) (hB : B ≤ b) (hAB : A ≤ B) (hw : B - A ≤ w) (tol : ℝ) {s : S} {u : ℝ}
    (hr : R s u) (hu : u ∈ Set.Icc A B) (p q : Bool) :
    (detectM ph ev s tol A B p q).2 = detect ph g tol A B p q ∧
      ∃ v ∈ Set.Icc A B, R (detectM ph ev s tol A B p q).1 v := by
  unfold detectM detect
  split
  · obtain ⟨e, m, r⟩ := maximizeM_sim h0 h1 h hA hB hAB hw tol hr hu
    exact ⟨by simp only [e], _, m, r⟩
  · split
    · obtain ⟨e, m, r⟩ := minimizeM_sim h0 h1 h hA hB hAB hw tol hr hu
      exact ⟨by simp only [e], _, m, r⟩
    · exact ⟨rfl, u, hu, hr⟩

theorem extremaLoopM_sim {ph : ℝ} (h0 : 0 ≤ ph) (h1 : ph ≤ 1) {step : ℝ}
    (h : Simulates ev g R a b (3 * step)) (hs : 0 < step) (tol : ℝ) (n : Nat) :
    ∀ {s : S} {u t0 t1 f1 : ℝ} (p : Bool) (acc : List (Extremum ℝ)), R s u → a ≤ t0 → t0 ≤ t1 →
      t1 ≤ b → t1 ≤ t0 + step → u ≤ t1 → a ≤ u → t1 - 2 * step ≤ u → f1 = g t1 →
      extremaLoopM ph ev b step tol n s t0 t1 f1 p acc = extremaLoop ph g b step tol n t0 t1 p acc := by
  induction n with
  | zero => intros; rfl
  | succ n ih =>
    intro s u t0 t1 f1 p acc hr ha h01 hb h1s hu hau hu2 hf
    unfold extremaLoopM extremaLoop
    simp only
    split
    · rfl
    · rename_i hlt
      rw [not_le] at hlt
      have hn : nextSample b step t1 ≤ t1 + step := nextSample_le_add
      have hnb : nextSample b step t1 ≤ b := nextSample_le
      have r := h.step s u (nextSample b step t1) hr ⟨hau, hu.trans hb⟩
        ⟨by linarith, hnb⟩ (by rw [abs_le]; constructor <;> linarith)
      have d := detectM_sim h0 h1 h ha hnb (by linarith) (by linarith) tol r.2
        (u := nextSample b step t1) (A := t0) (B := nextSample b step t1)
        ⟨by linarith, le_rfl⟩ p (decide ((ev s (nextSample b step t1)).2 > f1))
      obtain ⟨d1, v, hv, d2⟩ := d
      rw [d1, hf, r.1]
      rw [hf, r.1] at d2
      exact ih _ _ d2 (by linarith) (by linarith) hnb (by linarith) hv.2
        (by linarith [hv.1]) (by linarith [hv.1]) rfl

/-- Adding a constant to the function changes the values found and nothing else. -/
theorem goldenLoop_add (ph : ℝ) (g : ℝ → ℝ) (c tol : ℝ) (n : Nat) : ∀ (st : GoldenState ℝ),
    goldenLoop ph (fun t => g t + c) tol n { st with f1 := st.f1 + c, f2 := st.f2 + c } =
      { goldenLoop ph g tol n st with
        f1 := (goldenLoop ph g tol n st).f1 + c, f2 := (goldenLoop ph g tol n st).f2 + c } := by
  induction n with
  | zero => intro st; rfl
  | succ n ih =>
    intro st
    unfold goldenLoop
    simp only
    split
    · rfl
    · rw [← ih]
      congr 1
      unfold goldenStep
      simp only [add_lt_add_iff_right]
      split <;> rfl

theorem minimizeTol_add (ph A B : ℝ) (g : ℝ → ℝ) (c tol : ℝ) :
    minimizeTol ph A B (fun t => g t + c) tol =
      ((minimizeTol ph A B g tol).1, (minimizeTol ph A B g tol).2 + c) := by
  have := goldenLoop_add ph g c tol goldenMaxIter (goldenInit ph g A B)
  unfold minimizeTol
  have e : goldenInit ph (fun t => g t + c) A B =
      { goldenInit ph g A B with
        f1 := (goldenInit ph g A B).f1 + c, f2 := (goldenInit ph g A B).f2 + c } := rfl
  rw [e, this]

theorem maximizeTol_add (ph A B : ℝ) (g : ℝ → ℝ) (c tol : ℝ) :
    maximizeTol ph A B (fun t => g t + c) tol =
      ((maximizeTol ph A B g tol).1, (maximizeTol ph A B g tol).2 + c) := by
  have := minimizeTol_add ph A B (fun t => -g t) (-c) tol
  unfold maximizeTol
  simp only [neg_add]
  rw [this]

/-- The same extremum of the function raised by `c`. -/
def raise (c : ℝ) (x : Extremum ℝ) : Extremum ℝ := ⟨x.t, x.value + c, x.kind⟩

theorem detect_add (ph : ℝ) (g : ℝ → ℝ) (c tol A B : ℝ) (p q : Bool) :
    detect ph (fun t => g t + c) tol A B p q = (detect ph g tol A B p q).map (raise c) := by
  unfold detect
  split
  · rw [maximizeTol_add]; rfl
  · split
    · rw [minimizeTol_add]; rfl
    · rfl

theorem extremaLoop_add (ph : ℝ) (g : ℝ → ℝ) (c b step tol : ℝ) (n : Nat) :
    ∀ (t0 t1 : ℝ) (p : Bool) (acc : List (Extremum ℝ)),
      extremaLoop ph (fun t => g t + c) b step tol n t0 t1 p (acc.map (raise c)) =
        (extremaLoop ph g b step tol n t0 t1 p acc).map (·.map (raise c)) := by
  induction n with
  | zero => intros; rfl
  | succ n ih =>
    intro t0 t1 p acc
    unfold extremaLoop
    simp only
    split
    · rfl
    · rw [← ih, detect_add, List.map_append]
      simp only [gt_iff_lt, add_lt_add_iff_right]

theorem mergeSort_raise (c : ℝ) (l : List (Extremum ℝ)) :
    (l.map (raise c)).mergeSort (fun x y => decide (x.t ≤ y.t)) =
      (l.mergeSort (fun x y => decide (x.t ≤ y.t))).map (raise c) := by
  rw [List.map_mergeSort]
  intro x _ y _
  rfl

theorem findExtrema_add (ph : ℝ) (g : ℝ → ℝ) (c a b step tol : ℝ) (fuel : Nat) :
    findExtremaTol ph fuel a b step (fun t => g t + c) tol =
      (findExtremaTol ph fuel a b step g tol).map (·.map (raise c)) := by
  unfold findExtremaTol
  split
  · rfl
  · have := extremaLoop_add ph g c b step tol fuel a (nextSample b step a)
      (decide (g (nextSample b step a) > g a)) []
    simp only [List.map_nil] at this
    simp only [gt_iff_lt, add_lt_add_iff_right] at this ⊢
    rw [this, Option.map_map, Option.map_map]
    congr 1
    funext l
    exact mergeSort_raise c l

/-- One call of the unwrapping closure. -/
theorem unwrap_call {x y o : ℝ} {k : ℤ} (ho : remTau x + o = x + k * (2 * Real.pi))
    (hxy : |y - x| < Real.pi) :
    ((⟨some (remTau x), o⟩ : Unwrap).eval (remTau y)).2 = y + k * (2 * Real.pi) := by
  have hst := eval_step (o := o) (remTau_nonneg x) (remTau_lt x) (remTau_nonneg y) (remTau_lt y)
  obtain ⟨i, hi⟩ := remTau_eq x
  obtain ⟨j, hj⟩ := remTau_eq y
  obtain ⟨m, hm⟩ := eval_offset (s := ⟨some (remTau x), o⟩) (j := k + i) (by
    simp only
    rw [hi] at ho
    push_cast
    linarith) (remTau y)
  rw [(eval_value _ _).1, hm, hj, ho] at hst
  rw [(eval_value _ _).1, hm, hj]
  have hle := abs_le.mp hst
  have hlt := abs_lt.mp hxy
  have hpi := Real.pi_pos
  have d1 : ((m - j - k : ℤ) : ℝ) < (1 : ℤ) := by
    push_cast
    have : ((m : ℝ) - j - k) * (2 * Real.pi) < 1 * (2 * Real.pi) := by linarith [hle.2, hlt.1]
    exact lt_of_mul_lt_mul_right this (by positivity)
  have d2 : ((-1 : ℤ) : ℝ) < ((m - j - k : ℤ) : ℝ) := by
    push_cast
    have : -1 * (2 * Real.pi) < ((m : ℝ) - j - k) * (2 * Real.pi) := by linarith [hle.1, hlt.2]
    exact lt_of_mul_lt_mul_right this (by positivity)
  rw [Int.cast_lt] at d1 d2
  have : m = j + k := by omega
  rw [this]
  push_cast
  ring

/-- The state of the closure after a call at time `u`, the azimuth being `l` up to turns. -/
def Holds (l : ℝ → ℝ) (k : ℤ) (s : Unwrap) (u : ℝ) : Prop :=
  s.prev = some (remTau (l u)) ∧ remTau (l u) + s.offset = l u + k * (2 * Real.pi)

theorem unwrap_simulates {az l : ℝ → ℝ} {a b w : ℝ} (k : ℤ)
    (hl : ∀ t ∈ Set.Icc a b, az t = remTau (l t))
    (hw : ∀ t ∈ Set.Icc a b, ∀ u ∈ Set.Icc a b, |t - u| ≤ w → |l t - l u| < Real.pi) :
    Simulates (fun (s : Unwrap) t => s.eval (az t)) (fun t => l t + k * (2 * Real.pi)) (Holds l k)
      a b w := by
  refine ⟨fun s u t hr hu ht hd => ?_⟩
  obtain ⟨h1, h2⟩ := hr
  have hs : s = ⟨some (remTau (l u)), s.offset⟩ := by cases s; simp only at h1; rw [h1]
  have key := unwrap_call h2 (hw t ht u hu hd)
  rw [← hs, ← hl t ht] at key
  refine ⟨key, ?_, ?_⟩
  · rw [← hl t ht]; rfl
  · rw [← hl t ht]
    exact key

end Verif.Provider
