import Verif.Event.Scan2

namespace Verif.Event
open Spec Set

theorem zero_reported (root : RootFinder ℝ) (g : ℝ → ℝ) (a b step tol : ℝ) (hstep : 0 < step)
    (hab : a ≤ b) (hres : Resolved g a b step) (hacc : Accurate root g a b tol)
    (hcross : AllCross g a b step) (n : Nat)
    (cs : List (ℝ × ℝ)) (h : gridCells b step n a = some cs) (z : ℝ) (hz : z ∈ Icc a b)
    (hz0 : g z = 0) : ∃ x ∈ times (cs.filterMap (cellDirected root g a b)), |x - z| ≤ tol := by
  obtain ⟨k, hzk, hkb, hsc⟩ := hcross z hz hz0
  have hget := (gridCells_get b step hstep n a cs h k).1 hkb
  have hc : (cellLo a step k, cellHi a b step k) ∈ cs := List.mem_iff_getElem?.mpr ⟨k, hget⟩
  have hb := (gridCells_chain b step hstep n a hab cs h).bounds.2 _ hc
  have hok := cells_ok root g a b step tol hstep hab hres hacc n cs h _ hc
  rcases cell_cases root g a b tol _ hok ⟨hb.1, hb.2.2⟩ with ⟨_, h2⟩ | ⟨r, z', h1, _, _, hz', hz'0, hrz⟩
  · exfalso
    rcases hsc with ⟨h3, h4⟩ | ⟨h3, h4⟩
    · exact absurd (h2.mpr h4) (not_lt.mpr h3.le)
    · exact absurd (h2.mp h3) (not_lt.mpr h4.le)
  · refine ⟨r, ?_, ?_⟩
    · simp only [times, List.mem_map, List.mem_filterMap]
      exact ⟨_, ⟨_, hc, h1⟩, rfl⟩
    · rw [hok.unique z hzk z' hz' hz0 hz'0]; exact hrz

/-- Under the stated conditions, the labelling search agrees with the directed one. -/
theorem labelled_eq_directed (root : RootFinder ℝ) (fuel : Nat) (a b step tol : ℝ) (f : ℝ → ℝ)
    (thr : ℝ) (hab : a + 2 * probeDt ≤ b) (hstep : 0 < step) (htol : 0 ≤ tol)
    (hprobe : 2 * tol < probeDt)
    (hres : Resolved (fun t => f t - thr) a b step)
    (hacc : Accurate root (fun t => f t - thr) a b tol)
    (hcross : AllCross (fun t => f t - thr) a b step)
    (hsep : Separated (fun t => f t - thr) a b (2 * probeDt + 2 * tol))
    (hint : ∀ z ∈ Icc a b, f z = thr → a + 2 * probeDt + tol ≤ z ∧ z ≤ b - 2 * probeDt - tol) :
    aboveThresholdPeriods root fuel a b step f thr
      = aboveThresholdPeriodsDirected root fuel a b step f thr := by
  have hpp := probeDt_pos
  have hdp := dedupe_lt_probe
  have hab' : a < b := by linarith
  unfold aboveThresholdPeriods aboveThresholdPeriodsDirected
  rw [findCrossings_raw, findDirected_raw, Option.map_map, Option.map_map]
  cases hcs : gridCells b step fuel a with
  | none => rfl
  | some cs =>
    simp only [Option.map_some, Function.comp]
    refine congrArg some ?_
    have hsep' : Separated (fun t => f t - thr) a b (dedupeEps + 2 * tol) :=
      fun z hz z' hz' h1 h2 h3 => by have := hsep z hz z' hz' h1 h2 h3; linarith
    have hch := gridCells_chain b step hstep fuel a hab'.le cs hcs
    have hok := cells_ok root _ a b step tol hstep hab'.le hres hacc fuel cs hcs
    have hd : findDirectedCrossings root fuel a b step f thr = some
        (sortAndDedup (cs.filterMap (cellDirected root (fun t => f t - thr) a b)),
            decide (0 < f a - thr)) := by rw [findDirected_raw, hcs]; rfl
    obtain ⟨-, halt, hpw, hin, hgen, hstate⟩ := directed_scan root fuel a b step tol f thr hab' hstep
      htol hres hacc hsep' _ _ hd
    have hsepd := scan_separated root _ a b tol _ a cs hch le_rfl hok hsep'
    have hsep2 := scan_separated root _ a b tol _ a cs hch le_rfl hok hsep
    rw [sortAndDedup_id _ hsepd] at halt hpw hin hgen hstate ⊢
    have hrep := zero_reported root _ a b step tol hstep hab'.le hres hacc hcross fuel cs hcs
    generalize cs.filterMap (cellDirected root (fun t => f t - thr) a b) = l at *
    have hst : decide (0 < f a - thr) = decide (f a > thr) := by
      apply decide_eq_decide.mpr; constructor <;> intro h <;> linarith
    rw [hst] at halt hstate ⊢
    -- gaps
    have hgap : Gaps b (2 * probeDt) a l := by
      apply gaps_of_pairwise b _ a l hab
      · rw [List.pairwise_cons]
        constructor
        · intro x hx
          obtain ⟨z, hz, hz0, hxz⟩ := hgen x hx
          have := hint z hz (by linarith)
          rw [abs_le] at hxz
          linarith
        · exact hsep2
      · intro x hx
        obtain ⟨z, hz, hz0, hxz⟩ := hgen x hx
        have := hint z hz (by linarith)
        rw [abs_le] at hxz
        linarith
    have hH : StateOK f thr b tol a (decide (f a > thr)) l := by
      intro t hat htb hfar
      refine (hstate t ⟨hat.le, htb.le⟩ ?_).2
      intro z hz hz0
      obtain ⟨x, hx, hxz⟩ := hrep z hz (by linarith)
      have h1 := hfar x (by simp [hx])
      have h2 : |t - x| ≤ |t - z| + |x - z| := by
        have := abs_sub_le t z x
        rwa [abs_sub_comm z x] at this
      linarith
    have hall := hgap.le_all (by linarith)
    have hlab := labels_of_state f thr b tol (2 * probeDt) htol hprobe le_rfl l a _ hH hgap halt
    have hmids := midsOK_of_state f thr b tol (2 * probeDt) htol (by linarith) (by linarith) l a _ hH hgap
    have : labelCrossings (times l) f thr = l := by
      unfold labelCrossings
      simp only
      rw [labelSort_id _ hpw, hlab]
    rw [this]
    exact buildAbove_eq f thr a b _ l halt (times_strict hpw)
      (fun c hc => ⟨by linarith [(hall.2 c hc).1], by linarith [(hall.2 c hc).2]⟩) hmids

/-! ### Reference period algebra (shows that the contract can be met) -/

noncomputable def refComplGo (b : ℝ) : ℝ → List (ℝ × ℝ) → List (ℝ × ℝ)
  | lo, [] => if lo < b then [(lo, b)] else []
  | lo, p :: ps => (if lo < p.1 then [(lo, p.1)] else []) ++ refComplGo b p.2 ps

noncomputable def refCompl (w : ℝ × ℝ) (ps : List (ℝ × ℝ)) : List (ℝ × ℝ) := refComplGo w.2 w.1 ps

noncomputable def refInter (ps qs : List (ℝ × ℝ)) : List (ℝ × ℝ) :=
  ps.flatMap fun p => qs.flatMap fun q =>
    if max p.1 q.1 < min p.2 q.2 then [(max p.1 q.1, min p.2 q.2)] else []

theorem refComplGo_fst (b : ℝ) (ps : List (ℝ × ℝ)) : ∀ lo, ∀ q ∈ refComplGo b lo ps,
    (q.1 = lo ∨ ∃ p ∈ ps, q.1 = p.2) ∧ (q.2 = b ∨ ∃ p ∈ ps, q.2 = p.1) := by
  induction ps with
  | nil => intro lo q hq; simp only [refComplGo] at hq; split at hq <;> simp at hq; subst hq; simp
  | cons p ps ih =>
    intro lo q hq
    simp only [refComplGo, List.mem_append] at hq
    rcases hq with h | h
    · split at h <;> simp at h
      subst h; simp
    · obtain ⟨h1, h2⟩ := ih _ q h
      refine ⟨Or.inr ?_, ?_⟩
      · rcases h1 with h1 | ⟨r, hr, h1⟩
        · exact ⟨p, by simp, h1⟩
        · exact ⟨r, by simp [hr], h1⟩
      · rcases h2 with h2 | ⟨r, hr, h2⟩
        · exact Or.inl h2
        · exact Or.inr ⟨r, by simp [hr], h2⟩

theorem refComplGo_wf (a b : ℝ) (ps : List (ℝ × ℝ)) : ∀ lo, a ≤ lo → WellFormed a b ps →
    (∀ p ∈ ps, lo ≤ p.1) → WellFormed a b (refComplGo b lo ps) ∧ ∀ q ∈ refComplGo b lo ps, lo ≤ q.1 := by
  induction ps with
  | nil =>
    intro lo ha _ _
    simp only [refComplGo]
    split
    · rename_i h; simp [WellFormed, h, ha]
    · simp [WellFormed]
  | cons p ps ih =>
    intro lo ha hwf hlo
    have hp := hwf.1 p (by simp)
    have hlp := hlo p (by simp)
    have hpw := List.pairwise_cons.mp hwf.2
    have hrest := ih p.2 (by linarith) ⟨fun q hq => hwf.1 q (by simp [hq]), hpw.2⟩
      (fun q hq => (hpw.1 q hq).le)
    simp only [refComplGo]
    refine ⟨⟨?_, ?_⟩, ?_⟩
    · intro q hq
      rcases List.mem_append.mp hq with h | h
      · split at h <;> simp at h
        subst h
        rename_i h3
        exact ⟨ha, h3, by linarith⟩
      · exact hrest.1.1 q h
    · split
      · simp only [List.singleton_append, List.pairwise_cons]
        exact ⟨fun q hq => by have := hrest.2 q hq; linarith, hrest.1.2⟩
      · simpa using hrest.1.2
    · intro q hq
      rcases List.mem_append.mp hq with h | h
      · split at h <;> simp at h
        subst h; simp
      · have := hrest.2 q h; linarith

theorem refComplGo_mem (a b t : ℝ) (htb : t < b) (ps : List (ℝ × ℝ)) : ∀ lo, WellFormed a b ps →
    (∀ p ∈ ps, lo ≤ p.1) → (∀ p ∈ ps, t ≠ p.1 ∧ t ≠ p.2) →
    lo < t → (InSome (refComplGo b lo ps) t ↔ ¬ InSome ps t) := by
  induction ps with
  | nil =>
    intro lo _ _ _ hlt
    simp only [refComplGo]
    rw [if_pos (by linarith)]
    simp [InSome, hlt.le, htb.le]
  | cons p ps ih =>
    intro lo hwf hlo hne hlt
    have hp := hwf.1 p (by simp)
    have hpw := List.pairwise_cons.mp hwf.2
    have hnp := hne p (by simp)
    have hwf' : WellFormed a b ps := ⟨fun q hq => hwf.1 q (by simp [hq]), hpw.2⟩
    simp only [refComplGo]
    rw [InSome_append, InSome_keep]
    have hcons : InSome (p :: ps) t ↔ (p.1 ≤ t ∧ t ≤ p.2) ∨ InSome ps t := by simp [InSome]
    rw [hcons]
    rcases lt_or_gt_of_ne hnp.2 with h2 | h2
    · -- t < p.2
      have hno : ¬ InSome ps t := by
        rintro ⟨q, hq, h3, _⟩
        have := hpw.1 q hq
        linarith
      have hno2 : ¬ InSome (refComplGo b p.2 ps) t := by
        rintro ⟨q, hq, h3, _⟩
        have := (refComplGo_wf a b ps p.2 (by linarith) hwf' (fun q hq => (hpw.1 q hq).le)).2 q hq
        linarith
      rcases lt_or_gt_of_ne hnp.1 with h1 | h1
      · simp only [hno, hno2, or_false]
        constructor
        · rintro ⟨_, _, _⟩ ⟨h, _⟩; linarith
        · intro _; exact ⟨by linarith, hlt.le, h1.le⟩
      · simp only [hno, hno2, or_false]
        constructor
        · rintro ⟨_, _, h⟩; linarith
        · intro h; exact absurd ⟨h1.le, h2.le⟩ h
    · rw [ih p.2 hwf' (fun q hq => (hpw.1 q hq).le) (fun q hq => hne q (by simp [hq])) h2]
      constructor
      · rintro (⟨_, _, h⟩ | h)
        · linarith
        · rintro (⟨_, h'⟩ | h')
          · linarith
          · exact h h'
      · intro h; exact Or.inr (fun h' => h (Or.inr h'))

theorem refAlgebra_ok (a b : ℝ) : AlgebraOK refCompl refInter a b where
  compl_wf ps h := (refComplGo_wf a b ps a le_rfl h (fun p hp => (h.1 p hp).1)).1
  compl_ends ps _ := refComplGo_fst b ps a
  compl_mem ps h t hat htb hne :=
    refComplGo_mem a b t htb ps a h (fun p hp => (h.1 p hp).1) hne hat
  inter_mem ps qs _ _ t hp hq := by
    constructor
    · rintro ⟨x, hx, h1, h2⟩
      simp only [refInter, List.mem_flatMap] at hx
      obtain ⟨p, hp', q, hq', hx⟩ := hx
      split at hx <;> simp at hx
      subst hx
      simp only [max_le_iff, le_min_iff] at h1 h2
      exact ⟨⟨p, hp', h1.1, h2.1⟩, ⟨q, hq', h1.2, h2.2⟩⟩
    · rintro ⟨⟨p, hp', h1, h2⟩, ⟨q, hq', h3, h4⟩⟩
      refine ⟨(max p.1 q.1, min p.2 q.2), ?_, max_le h1 h3, le_min h2 h4⟩
      simp only [refInter, List.mem_flatMap]
      refine ⟨p, hp', q, hq', ?_⟩
      have hn1 := hp p hp'
      have hn2 := hq q hq'
      rw [if_pos]
      · simp
      · exact lt_of_lt_of_le (max_lt (lt_of_le_of_ne h1 (Ne.symm hn1.1)) (lt_of_le_of_ne h3 (Ne.symm hn2.1)))
          (le_min h2 h4)

/-! ### Crossings are genuine, sorted, separated; none is lost -/

theorem cellDirected_some (root : RootFinder ℝ) (g : ℝ → ℝ) (a b : ℝ) (c : ℝ × ℝ)
    (x : LabeledCrossing ℝ) (h : cellDirected root g a b c = some x) :
    a ≤ x.t ∧ x.t ≤ b ∧ root c.1 c.2 (g c.1) (g c.2) g = some x.t ∧
    ((x.direction = 1 ∧ g c.1 < 0 ∧ 0 < g c.2) ∨ (x.direction = -1 ∧ 0 < g c.1 ∧ g c.2 < 0)) := by
  unfold cellDirected bracketDirection at h
  by_cases h1 : g c.1 < 0 ∧ g c.2 > 0
  · simp only [h1, and_self, if_true] at h
    split at h
    · rename_i r hr
      split at h <;> simp at h
      subst h
      rename_i h2
      exact ⟨h2.1, h2.2, hr, Or.inl ⟨rfl, h1⟩⟩
    · simp at h
  · by_cases h2 : g c.1 > 0 ∧ g c.2 < 0
    · simp only [h1, if_false, h2, and_self, if_true] at h
      split at h
      · rename_i r hr
        split at h <;> simp at h
        subst h
        rename_i h3
        exact ⟨h3.1, h3.2, hr, Or.inr ⟨rfl, h2⟩⟩
      · simp at h
    · simp [h1, h2] at h

theorem dedupFrom_sub {α : Type} (same : α → α → Bool) (x : α) (l : List α) :
    (dedupFrom same x l).Sublist l := by
  induction l generalizing x with
  | nil => simp [dedupFrom]
  | cons y ys ih =>
    simp only [dedupFrom]
    split
    · exact (ih x).trans (List.sublist_cons_self _ _)
    · exact (ih y).cons_cons y

theorem dedupBy_sub {α : Type} (same : α → α → Bool) (l : List α) :
    (dedupBy same l).Sublist l := by
  cases l with
  | nil => simp [dedupBy]
  | cons x xs => exact (dedupFrom_sub same x xs).cons_cons x

theorem dedupFrom_sep (x : LabeledCrossing ℝ) (l : List (LabeledCrossing ℝ))
    (h : (x :: l).Pairwise (fun u v => u.t ≤ v.t)) :
    (x :: dedupFrom (fun a b => decide (|a.t - b.t| < dedupeEps)) x l).Pairwise
      (fun u v => dedupeEps ≤ v.t - u.t) := by
  have hpos := dedupeEps_pos
  induction l generalizing x with
  | nil => simp [dedupFrom]
  | cons y ys ih =>
    rw [List.pairwise_cons, List.pairwise_cons] at h
    have hxy := h.1 y (by simp)
    simp only [dedupFrom]
    split
    · exact ih x (by rw [List.pairwise_cons]; exact ⟨fun z hz => h.1 z (by simp [hz]), h.2.2⟩)
    · rename_i hd
      rw [decide_eq_true_iff, not_lt, abs_of_nonneg (by linarith)] at hd
      have hy := ih y (by rw [List.pairwise_cons]; exact h.2)
      rw [List.pairwise_cons]
      refine ⟨?_, hy⟩
      intro z hz
      rcases List.mem_cons.mp hz with rfl | hz
      · exact hd
      · have := (List.pairwise_cons.mp hy).1 z hz
        linarith

theorem sorted_mergeSort (l : List (LabeledCrossing ℝ)) :
    (l.mergeSort (fun a b => decide (a.t ≤ b.t))).Pairwise (fun u v => u.t ≤ v.t) := by
  have := List.pairwise_mergeSort (le := fun a b : LabeledCrossing ℝ => decide (a.t ≤ b.t))
    (fun a b c h1 h2 => by simp at *; linarith)
    (fun a b => by simp; exact le_total _ _) l
  exact this.imp (fun h => by simpa using h)

theorem sortAndDedup_sep (l : List (LabeledCrossing ℝ)) :
    (sortAndDedup l).Pairwise (fun u v => dedupeEps ≤ v.t - u.t) := by
  unfold sortAndDedup
  have hs := sorted_mergeSort l
  cases hm : l.mergeSort (fun a b => decide (a.t ≤ b.t)) with
  | nil => simp [dedupBy]
  | cons x xs =>
    rw [hm] at hs
    exact dedupFrom_sep x xs hs

theorem sortAndDedup_subset (l : List (LabeledCrossing ℝ)) (x) (h : x ∈ sortAndDedup l) : x ∈ l := by
  unfold sortAndDedup at h
  exact List.mem_mergeSort.mp ((dedupBy_sub _ _).subset h)

theorem dedupFrom_near (x : LabeledCrossing ℝ) (l : List (LabeledCrossing ℝ)) :
    ∀ y ∈ l, ∃ z ∈ x :: dedupFrom (fun a b => decide (|a.t - b.t| < dedupeEps)) x l,
      |y.t - z.t| < dedupeEps := by
  have hpos := dedupeEps_pos
  induction l generalizing x with
  | nil => simp
  | cons w ws ih =>
    intro y hy
    simp only [dedupFrom]
    split
    · rename_i hd
      rcases List.mem_cons.mp hy with rfl | hy
      · exact ⟨x, by simp, by simpa using hd⟩
      · exact ih x y hy
    · rcases List.mem_cons.mp hy with rfl | hy
      · exact ⟨y, by simp, by simpa using hpos⟩
      · obtain ⟨z, hz, h⟩ := ih w y hy
        exact ⟨z, List.mem_cons_of_mem _ hz, h⟩

theorem sortAndDedup_near (l : List (LabeledCrossing ℝ)) (y) (hy : y ∈ l) :
    ∃ z ∈ sortAndDedup l, |y.t - z.t| < dedupeEps := by
  have hpos := dedupeEps_pos
  have hy' : y ∈ l.mergeSort (fun a b => decide (a.t ≤ b.t)) := List.mem_mergeSort.mpr hy
  unfold sortAndDedup
  cases hm : l.mergeSort (fun a b => decide (a.t ≤ b.t)) with
  | nil => rw [hm] at hy'; simp at hy'
  | cons x xs =>
    rw [hm] at hy'
    rcases List.mem_cons.mp hy' with rfl | hy'
    · exact ⟨y, by simp [dedupBy], by simpa using hpos⟩
    · exact dedupFrom_near x xs y hy'

/-! ### Alternation without accuracy -/

theorem scan_alternates (root : RootFinder ℝ) (g : ℝ → ℝ) (a b : ℝ) (t0 : ℝ)
    (cs : List (ℝ × ℝ)) (hch : Chain b t0 cs) (ha : a ≤ t0)
    (hne : ∀ c ∈ cs, g c.1 ≠ 0 ∧ g c.2 ≠ 0)
    (hroot : ∀ c ∈ cs, SignChange g c.1 c.2 →
      ∃ r, root c.1 c.2 (g c.1) (g c.2) g = some r ∧ c.1 ≤ r ∧ r ≤ c.2) :
    Alternates (decide (0 < g t0)) (cs.filterMap (cellDirected root g a b)) := by
  induction hch with
  | nil => exact trivial
  | cons lo hi cs hlt hle hch ih =>
    have i1 := ih (ha.trans hlt.le) (fun c hc => hne c (by simp [hc])) (fun c hc => hroot c (by simp [hc]))
    have hn := hne (lo, hi) (by simp)
    have hr := hroot (lo, hi) (by simp)
    simp only at hn hr
    cases hcd : cellDirected root g a b (lo, hi) with
    | none =>
      rw [List.filterMap_cons_none hcd]
      have hnsc : ¬ SignChange g lo hi := by
        intro hsc
        obtain ⟨r, h1, h2, h3⟩ := hr hsc
        have hin : r ≥ a ∧ r ≤ b := ⟨ha.trans h2, h3.trans hle⟩
        rcases hsc with hsc | hsc
        · simp [cellDirected, bracketDirection, hsc, h1, hin] at hcd
        · simp [cellDirected, bracketDirection, hsc, h1, hin, not_lt.mpr hsc.1.le] at hcd
      have : decide (0 < g lo) = decide (0 < g hi) := by
        apply decide_eq_decide.mpr
        rcases lt_or_gt_of_ne hn.1 with h1 | h1 <;> rcases lt_or_gt_of_ne hn.2 with h2 | h2
        · exact ⟨fun h => by linarith, fun h => by linarith⟩
        · exact absurd (Or.inl ⟨h1, h2⟩) hnsc
        · exact absurd (Or.inr ⟨h1, h2⟩) hnsc
        · exact ⟨fun _ => h2, fun _ => h1⟩
      rw [this]; exact i1
    | some x =>
      rw [List.filterMap_cons_some hcd]
      obtain ⟨_, _, _, h⟩ := cellDirected_some root g a b (lo, hi) x hcd
      rcases h with ⟨hd, h1, h2⟩ | ⟨hd, h1, h2⟩
      · simp only at h1 h2
        rw [decide_eq_true h2] at i1
        rw [decide_eq_false (not_lt.mpr h1.le)]
        exact ⟨by simpa using hd, by simpa using i1⟩
      · simp only at h1 h2
        rw [decide_eq_false (not_lt.mpr h2.le)] at i1
        rw [decide_eq_true h1]
        exact ⟨by simpa using hd, by simpa using i1⟩

end Verif.Event
