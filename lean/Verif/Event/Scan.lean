import Verif.Event.Lemmas
import Mathlib.Topology.Order.IntermediateValue
import Mathlib.Topology.MetricSpace.Pseudo.Defs
import Mathlib.Topology.Instances.Real.Lemmas

/-! Lemmas about the scan of a continuous real function. -/
namespace Verif.Event
open Spec Set

theorem exists_zero (g : ℝ → ℝ) (x y : ℝ) (hxy : x ≤ y) (hc : ContinuousOn g (Icc x y))
    (h : SignChange g x y) : ∃ z ∈ Icc x y, g z = 0 := by
  rcases h with ⟨h1, h2⟩ | ⟨h1, h2⟩
  · exact intermediate_value_Icc hxy hc ⟨h1.le, h2.le⟩
  · exact intermediate_value_Icc' hxy hc ⟨h2.le, h1.le⟩

/-- Hypotheses on one cell `[lo, hi]` of the scan. -/
structure CellOK (root : RootFinder ℝ) (g : ℝ → ℝ) (tol : ℝ) (c : ℝ × ℝ) : Prop where
  lo_ne : g c.1 ≠ 0
  hi_ne : g c.2 ≠ 0
  unique : ∀ z ∈ Icc c.1 c.2, ∀ z' ∈ Icc c.1 c.2, g z = 0 → g z' = 0 → z = z'
  acc : SignChange g c.1 c.2 → ∃ r z, root c.1 c.2 (g c.1) (g c.2) g = some r ∧
    r ∈ Icc c.1 c.2 ∧ z ∈ Icc c.1 c.2 ∧ g z = 0 ∧ |r - z| ≤ tol

/-- What a cell contributes. -/
theorem cell_cases (root : RootFinder ℝ) (g : ℝ → ℝ) (a b tol : ℝ) (c : ℝ × ℝ)
    (hok : CellOK root g tol c) (hab : a ≤ c.1 ∧ c.2 ≤ b) :
    (cellDirected root g a b c = none ∧ ((0 < g c.1) ↔ (0 < g c.2))) ∨
    (∃ r z, cellDirected root g a b c = some ⟨r, if 0 < g c.1 then -1 else 1⟩ ∧
      ((0 < g c.1) ↔ ¬ (0 < g c.2)) ∧
      r ∈ Icc c.1 c.2 ∧ z ∈ Icc c.1 c.2 ∧ g z = 0 ∧ |r - z| ≤ tol) := by
  rcases lt_or_gt_of_ne hok.lo_ne with hlo | hlo <;> rcases lt_or_gt_of_ne hok.hi_ne with hhi | hhi
  · left
    refine ⟨?_, by constructor <;> intro h <;> linarith⟩
    have : bracketDirection (g c.1) (g c.2) = none := by
      rw [bracketDirection_none]; rintro (⟨_, h⟩ | ⟨h, _⟩) <;> linarith
    simp [cellDirected, this]
  · right
    obtain ⟨r, z, hr, hr2, hz⟩ := hok.acc (Or.inl ⟨hlo, hhi⟩)
    refine ⟨r, z, ?_, ⟨fun h => by linarith, fun h => absurd hhi h⟩, hr2, hz⟩
    have : bracketDirection (g c.1) (g c.2) = some 1 := by
      unfold bracketDirection; rw [if_pos ⟨hlo, hhi⟩]
    have hin : r ≥ a ∧ r ≤ b := ⟨le_trans hab.1 hr2.1, le_trans hr2.2 hab.2⟩
    simp only [cellDirected, this, hr]
    rw [if_pos hin, if_neg (not_lt.mpr hlo.le)]
  · right
    obtain ⟨r, z, hr, hr2, hz⟩ := hok.acc (Or.inr ⟨hlo, hhi⟩)
    refine ⟨r, z, ?_, ⟨fun _ => not_lt.mpr hhi.le, fun _ => hlo⟩, hr2, hz⟩
    have : bracketDirection (g c.1) (g c.2) = some (-1) := by
      unfold bracketDirection; rw [if_neg (fun h => by linarith [h.1]), if_pos ⟨hlo, hhi⟩]
    have hin : r ≥ a ∧ r ≤ b := ⟨le_trans hab.1 hr2.1, le_trans hr2.2 hab.2⟩
    simp only [cellDirected, this, hr]
    rw [if_pos hin, if_pos hlo]
  · left
    refine ⟨?_, by constructor <;> intro h <;> linarith⟩
    have : bracketDirection (g c.1) (g c.2) = none := by
      rw [bracketDirection_none]; rintro (⟨h, _⟩ | ⟨_, h⟩) <;> linarith
    simp [cellDirected, this]

/-- Sign of `g` at `t` in a cell, relative to the left end. -/
theorem sign_left (g : ℝ → ℝ) (lo hi t : ℝ) (ht : t ∈ Icc lo hi)
    (hc : ContinuousOn g (Icc lo hi)) (hlo : g lo ≠ 0) (hgt : g t ≠ 0)
    (hno : ∀ z ∈ Icc lo t, g z ≠ 0) : (0 < g lo ↔ 0 < g t) := by
  by_contra hne
  have hsc : SignChange g lo t := by
    rcases lt_or_gt_of_ne hlo with h1 | h1 <;> rcases lt_or_gt_of_ne hgt with h2 | h2
    · exact absurd ⟨fun h => by linarith, fun h => by linarith⟩ hne
    · exact Or.inl ⟨h1, h2⟩
    · exact Or.inr ⟨h1, h2⟩
    · exact absurd ⟨fun _ => h2, fun _ => h1⟩ hne
  obtain ⟨z, hz, hz0⟩ := exists_zero g lo t ht.1 (hc.mono (Icc_subset_Icc_right ht.2)) hsc
  exact hno z hz hz0

theorem sign_right (g : ℝ → ℝ) (lo hi t : ℝ) (ht : t ∈ Icc lo hi)
    (hc : ContinuousOn g (Icc lo hi)) (hhi : g hi ≠ 0) (hgt : g t ≠ 0)
    (hno : ∀ z ∈ Icc t hi, g z ≠ 0) : (0 < g t ↔ 0 < g hi) := by
  by_contra hne
  have hsc : SignChange g t hi := by
    rcases lt_or_gt_of_ne hgt with h1 | h1 <;> rcases lt_or_gt_of_ne hhi with h2 | h2
    · exact absurd ⟨fun h => by linarith, fun h => by linarith⟩ hne
    · exact Or.inl ⟨h1, h2⟩
    · exact Or.inr ⟨h1, h2⟩
    · exact absurd ⟨fun _ => h2, fun _ => h1⟩ hne
  obtain ⟨z, hz, hz0⟩ := exists_zero g t hi ht.2 (hc.mono (Icc_subset_Icc_left ht.1)) hsc
  exact hno z hz hz0

/-- Inside a cell with an accurate crossing `r`, the sign at `t` is that of the side of `r` on
which `t` lies, provided `t` is farther than `tol` from the zero. -/
theorem sign_of_side (root : RootFinder ℝ) (g : ℝ → ℝ) (tol : ℝ) (c : ℝ × ℝ)
    (hok : CellOK root g tol c) (hc : ContinuousOn g (Icc c.1 c.2)) (r z t : ℝ)
    (hz : z ∈ Icc c.1 c.2) (hz0 : g z = 0) (hrz : |r - z| ≤ tol) (ht : t ∈ Icc c.1 c.2)
    (hgt : g t ≠ 0) (hfar : tol < |t - z|) :
    (t < r → (0 < g c.1 ↔ 0 < g t)) ∧ (r ≤ t → (0 < g t ↔ 0 < g c.2)) := by
  rw [abs_le] at hrz
  constructor
  · intro htr
    have htz : t < z := by
      by_contra h
      have : |t - z| = t - z := abs_of_nonneg (by linarith)
      rw [this] at hfar
      linarith
    apply sign_left g c.1 c.2 t ht hc hok.lo_ne hgt
    intro w hw hw0
    have := hok.unique w ⟨hw.1, le_trans hw.2 ht.2⟩ z hz hw0 hz0
    have := hw.2
    linarith
  · intro htr
    have htz : z < t := by
      by_contra h
      have : |t - z| = -(t - z) := abs_of_nonpos (by linarith)
      rw [this] at hfar
      linarith
    apply sign_right g c.1 c.2 t ht hc hok.hi_ne hgt
    intro w hw hw0
    have := hok.unique w ⟨le_trans ht.1 hw.1, hw.2⟩ z hz hw0 hz0
    have := hw.1
    linarith

/-- In a cell without sign change the sign is constant off zeros. -/
theorem sign_no_change (root : RootFinder ℝ) (g : ℝ → ℝ) (tol : ℝ) (c : ℝ × ℝ)
    (hok : CellOK root g tol c) (hc : ContinuousOn g (Icc c.1 c.2))
    (hsame : 0 < g c.1 ↔ 0 < g c.2) (t : ℝ) (ht : t ∈ Icc c.1 c.2) (hgt : g t ≠ 0) :
    0 < g c.1 ↔ 0 < g t := by
  by_cases h1 : ∃ z ∈ Icc c.1 t, g z = 0
  · obtain ⟨z, hz, hz0⟩ := h1
    have : 0 < g t ↔ 0 < g c.2 := by
      apply sign_right g c.1 c.2 t ht hc hok.hi_ne hgt
      intro w hw hw0
      have e := hok.unique w ⟨le_trans ht.1 hw.1, hw.2⟩ z ⟨hz.1, le_trans hz.2 ht.2⟩ hw0 hz0
      have : z = t := le_antisymm hz.2 (by rw [← e]; exact hw.1)
      exact hgt (this ▸ hz0)
    exact hsame.trans this.symm
  · push Not at h1
    exact sign_left g c.1 c.2 t ht hc hok.lo_ne hgt h1

theorem Chain.bounds {b t : ℝ} {cs : List (ℝ × ℝ)} (h : Chain b t cs) :
    t ≤ b ∧ ∀ c ∈ cs, t ≤ c.1 ∧ c.1 < c.2 ∧ c.2 ≤ b := by
  induction h with
  | nil => simp
  | cons lo hi cs h1 h2 _ ih =>
    refine ⟨(h1.trans_le h2).le, fun c hc => ?_⟩
    rcases List.mem_cons.mp hc with rfl | hc
    · exact ⟨le_rfl, h1, h2⟩
    · have := ih.2 c hc
      exact ⟨h1.le.trans this.1, this.2⟩

/-- Crossing times collected from a chain of cells lie at or after the chain's start. -/
theorem scan_times_ge (root : RootFinder ℝ) (g : ℝ → ℝ) (a b tol : ℝ) (t0 : ℝ)
    (cs : List (ℝ × ℝ)) (hch : Chain b t0 cs) (ha : a ≤ t0)
    (hok : ∀ c ∈ cs, CellOK root g tol c) :
    ∀ x ∈ times (cs.filterMap (cellDirected root g a b)), t0 ≤ x ∧ x ≤ b ∧
      ∃ c ∈ cs, ∃ z ∈ Icc c.1 c.2, x ∈ Icc c.1 c.2 ∧ g z = 0 ∧ |x - z| ≤ tol := by
  intro x hx
  simp only [times, List.mem_map, List.mem_filterMap] at hx
  obtain ⟨lc, ⟨c, hc, hcd⟩, rfl⟩ := hx
  have hb := hch.bounds.2 c hc
  rcases cell_cases root g a b tol c (hok c hc) ⟨ha.trans hb.1, hb.2.2⟩ with ⟨h, _⟩ | ⟨r, z, h, _, hr, hz, hz0, hrz⟩
  · rw [h] at hcd; simp at hcd
  · rw [h] at hcd
    simp only [Option.some.injEq] at hcd
    subst hcd
    exact ⟨hb.1.trans hr.1, hr.2.trans hb.2.2, c, hc, z, hz, hr, hz0, hrz⟩

/-- Main scan lemma: labels alternate, times are in order, and the state obtained by counting
crossings is the sign of `g`. -/
theorem scan_spec (root : RootFinder ℝ) (g : ℝ → ℝ) (a b tol : ℝ) (t0 : ℝ)
    (cs : List (ℝ × ℝ)) (hch : Chain b t0 cs) (ha : a ≤ t0)
    (hok : ∀ c ∈ cs, CellOK root g tol c) (hc : ContinuousOn g (Icc t0 b))
    (hg0 : g t0 ≠ 0) :
    Alternates (decide (0 < g t0)) (cs.filterMap (cellDirected root g a b)) ∧
    (times (cs.filterMap (cellDirected root g a b))).Pairwise (· ≤ ·) ∧
    ∀ t ∈ Icc t0 b, g t ≠ 0 → t ∉ times (cs.filterMap (cellDirected root g a b)) →
      (∀ z ∈ Icc t0 b, g z = 0 → tol < |t - z|) →
      (stateAt (decide (0 < g t0)) (times (cs.filterMap (cellDirected root g a b))) t = true
        ↔ 0 < g t) := by
  induction hch with
  | nil =>
    refine ⟨trivial, by simp [times], fun t ht _ _ _ => ?_⟩
    have : t = b := le_antisymm ht.2 ht.1
    subst this
    simp [times, stateAt]
  | cons lo hi cs hlt hle hch ih =>
    have hokc := hok (lo, hi) (by simp)
    have hok' : ∀ c ∈ cs, CellOK root g tol c := fun c hc => hok c (by simp [hc])
    obtain ⟨i1, i2, i3⟩ := ih (ha.trans hlt.le) hok' (hc.mono (Icc_subset_Icc_left hlt.le)) hokc.hi_ne
    have hge := scan_times_ge root g a b tol hi cs hch (ha.trans hlt.le) hok'
    have hcc : ContinuousOn g (Icc lo hi) := hc.mono (Icc_subset_Icc_right hle)
    have hlater : ∀ t ≤ hi, ∀ x ∈ times (cs.filterMap (cellDirected root g a b)), t ≤ x :=
      fun t ht x hx => ht.trans (hge x hx).1
    rcases cell_cases root g a b tol (lo, hi) hokc ⟨ha, hle⟩ with
      ⟨h, hs⟩ | ⟨r, z, h, hs, hr, hz, hz0, hrz⟩
    · rw [List.filterMap_cons_none h]
      have hd : decide (0 < g hi) = decide (0 < g lo) := decide_eq_decide.mpr hs.symm
      refine ⟨hd ▸ i1, i2, fun t ht hgt hnt hfar => ?_⟩
      by_cases hthi : t ≤ hi
      · rw [stateAt_later _ _ _ (hlater t hthi), decide_eq_true_iff]
        exact sign_no_change root g tol (lo, hi) hokc hcc hs t ⟨ht.1, hthi⟩ hgt
      · rw [← hd]
        exact i3 t ⟨(not_le.mp hthi).le, ht.2⟩ hgt hnt
          (fun z hz hz0 => hfar z ⟨hlt.le.trans hz.1, hz.2⟩ hz0)
    · rw [List.filterMap_cons_some h]
      have hd : decide (0 < g hi) = !decide (0 < g lo) := by
        by_cases h' : 0 < g lo
        · simp [h', hs.mp h']
        · have : 0 < g hi := by by_contra h2; exact h' (hs.mpr h2)
          simp [h', this]
      refine ⟨⟨?_, hd ▸ i1⟩, ?_, fun t ht hgt hnt hfar => ?_⟩
      · simp only [decide_eq_true_eq]
      · simp only [times, List.map_cons, List.pairwise_cons]
        exact ⟨fun x hx => hr.2.trans (hge x hx).1, i2⟩
      · simp only [times, List.map_cons, List.mem_cons, not_or] at hnt
        have hside := sign_of_side root g tol (lo, hi) hokc hcc r z t hz hz0 hrz
        have hfz := hfar z ⟨hz.1, hz.2.trans hle⟩ hz0
        change stateAt _ (r :: times (cs.filterMap (cellDirected root g a b))) t = true ↔ _
        rw [stateAt_cons]
        by_cases hthi : t ≤ hi
        · rw [stateAt_later _ _ _ (hlater t hthi), stateAt_later _ _ _ (hlater t hthi)]
          by_cases hrt : r < t
          · rw [if_pos hrt, ← hd, decide_eq_true_iff]
            exact ((hside ⟨ht.1, hthi⟩ hgt hfz).2 hrt.le).symm
          · rw [if_neg hrt, decide_eq_true_iff]
            exact (hside ⟨ht.1, hthi⟩ hgt hfz).1 (lt_of_le_of_ne (not_lt.mp hrt) hnt.1)
        · have hhit := not_le.mp hthi
          rw [if_pos (lt_of_le_of_lt hr.2 hhit), ← hd]
          exact i3 t ⟨hhit.le, ht.2⟩ hgt hnt.2
            (fun z hz hz0 => hfar z ⟨hlt.le.trans hz.1, hz.2⟩ hz0)

/-- Reported crossings are separated when the zeros are. -/
theorem scan_separated (root : RootFinder ℝ) (g : ℝ → ℝ) (a b tol d : ℝ) (t0 : ℝ)
    (cs : List (ℝ × ℝ)) (hch : Chain b t0 cs) (ha : a ≤ t0)
    (hok : ∀ c ∈ cs, CellOK root g tol c)
    (hsep : ∀ z ∈ Icc t0 b, ∀ z' ∈ Icc t0 b, g z = 0 → g z' = 0 → z ≠ z' →
      d + 2 * tol ≤ |z - z'|) :
    (times (cs.filterMap (cellDirected root g a b))).Pairwise (fun x y => d ≤ y - x) := by
  induction hch with
  | nil => simp [times]
  | cons lo hi cs hlt hle hch ih =>
    have hokc := hok (lo, hi) (by simp)
    have hok' : ∀ c ∈ cs, CellOK root g tol c := fun c hc => hok c (by simp [hc])
    have hge := scan_times_ge root g a b tol hi cs hch (ha.trans hlt.le) hok'
    have hrest := ih (ha.trans hlt.le) hok' (fun z hz z' hz' =>
      hsep z ⟨hlt.le.trans hz.1, hz.2⟩ z' ⟨hlt.le.trans hz'.1, hz'.2⟩)
    rcases cell_cases root g a b tol (lo, hi) hokc ⟨ha, hle⟩ with
      ⟨h, hs⟩ | ⟨r, z, h, hs, hr, hz, hz0, hrz⟩
    · rw [List.filterMap_cons_none h]; exact hrest
    · rw [List.filterMap_cons_some h]
      simp only [times, List.map_cons, List.pairwise_cons]
      refine ⟨fun x hx => ?_, hrest⟩
      obtain ⟨h1, h2, c, hc, z', hz', hxc, hz'0, hxz'⟩ := hge x hx
      have hcb := hch.bounds.2 c hc
      have hne : z ≠ z' := by
        intro e
        have h3 : z = hi := le_antisymm hz.2 (by rw [e]; exact hcb.1.trans hz'.1)
        exact hokc.hi_ne (h3 ▸ hz0)
      have hzz : z ≤ z' := hz.2.trans (hcb.1.trans hz'.1)
      have := hsep z ⟨hz.1, hz.2.trans hle⟩ z' ⟨hlt.le.trans (hcb.1.trans hz'.1), hz'.2.trans hcb.2.2⟩
        hz0 hz'0 hne
      rw [abs_sub_comm, abs_of_nonneg (by linarith)] at this
      rw [abs_le] at hrz hxz'
      linarith

theorem dedupFrom_id {α : Type} (same : α → α → Bool) (x : α) (l : List α)
    (h : (x :: l).Pairwise (fun u v => same v u = false)) : dedupFrom same x l = l := by
  induction l generalizing x with
  | nil => rfl
  | cons y ys ih =>
    rw [List.pairwise_cons] at h
    simp only [dedupFrom, h.1 y (by simp), Bool.false_eq_true, if_false]
    rw [ih y h.2]

theorem dedupBy_id {α : Type} (same : α → α → Bool) (l : List α)
    (h : l.Pairwise (fun u v => same v u = false)) : dedupBy same l = l := by
  cases l with
  | nil => rfl
  | cons x xs => simp only [dedupBy, dedupFrom_id same x xs h]

theorem dedupeEps_pos : (0 : ℝ) < dedupeEps := by unfold dedupeEps; positivity

theorem sortAndDedup_id (l : List (LabeledCrossing ℝ))
    (h : (times l).Pairwise (fun x y => dedupeEps ≤ y - x)) : sortAndDedup l = l := by
  have h' : l.Pairwise (fun x y => dedupeEps ≤ y.t - x.t) := by
    simpa [times, List.pairwise_map] using h
  unfold sortAndDedup
  rw [List.mergeSort_of_pairwise]
  · apply dedupBy_id
    refine h'.imp ?_
    intro x y hxy
    have := dedupeEps_pos
    rw [decide_eq_false_iff_not, not_lt, abs_of_nonneg (by linarith)]
    exact hxy
  · refine h'.imp ?_
    intro x y hxy
    have := dedupeEps_pos
    simp only [decide_eq_true_eq]
    linarith

end Verif.Event
