import Verif.Stellar.Predict
import Verif.Event.Scan3
import Verif.RootFinding.Spec
import Mathlib.Data.List.Forall2

/-! Lemmas about refining predicted crossings and building periods from them. -/
namespace Verif.Stellar

open Spec Set Verif.Event Verif.Event.Spec

/-! ### Signs and zeros -/

theorem same_sign {g : ℝ → ℝ} {x y : ℝ} (hxy : x ≤ y) (hc : ContinuousOn g (Icc x y))
    (hz : ∀ z ∈ Icc x y, g z ≠ 0) : 0 < g x ↔ 0 < g y := by
  have hx := hz x ⟨le_rfl, hxy⟩
  have hy := hz y ⟨hxy, le_rfl⟩
  constructor
  · intro h
    by_contra h'
    obtain ⟨z, hz1, hz2⟩ := exists_zero g x y hxy hc (Or.inr ⟨h, lt_of_le_of_ne (not_lt.mp h') hy⟩)
    exact hz z hz1 hz2
  · intro h
    by_contra h'
    obtain ⟨z, hz1, hz2⟩ := exists_zero g x y hxy hc (Or.inl ⟨lt_of_le_of_ne (not_lt.mp h') hx, h⟩)
    exact hz z hz1 hz2

theorem exists_before (z : ℝ) (l : List ℝ) (h : ∀ x ∈ l, z < x) : ∃ m > z, ∀ x ∈ l, m ≤ x := by
  induction l with
  | nil => exact ⟨z + 1, by linarith, by simp⟩
  | cons y ys ih =>
    obtain ⟨m, hm, hm'⟩ := ih (fun x hx => h x (by simp [hx]))
    refine ⟨min m y, lt_min hm (h y (by simp)), ?_⟩
    intro x hx
    rcases List.mem_cons.mp hx with rfl | hx
    · exact min_le_right _ _
    · exact le_trans (min_le_left _ _) (hm' x hx)

/-- Counting the zeros passed gives the sign. -/
theorem sign_state (g : ℝ → ℝ) (b : ℝ) (zs : List ℝ) : ∀ lo, lo ≤ b → ContinuousOn g (Icc lo b) →
    g lo ≠ 0 → zs.Pairwise (· < ·) → (∀ z ∈ zs, z ∈ Icc lo b) → (∀ z ∈ Icc lo b, g z = 0 ↔ z ∈ zs) →
    (∀ z ∈ zs, Crosses g z ∧ z < b) → ∀ t ∈ Icc lo b, g t ≠ 0 →
    (stateAt (decide (0 < g lo)) zs t = true ↔ 0 < g t) := by
  induction zs with
  | nil =>
    intro lo hlo hc hl _ _ hz _ t ht hgt
    simp only [stateAt, List.foldl_nil, decide_eq_true_eq]
    refine same_sign ht.1 (hc.mono (Icc_subset_Icc le_rfl ht.2)) ?_
    intro z hz' h0
    have := (hz z ⟨hz'.1, hz'.2.trans ht.2⟩).mp h0
    simp at this
  | cons z zs ih =>
    intro lo hlo hc hl hs hin hz hcr t ht hgt
    obtain ⟨⟨δ, hδ, hcross⟩, hzb⟩ := hcr z (by simp)
    have hs1 := (List.pairwise_cons.mp hs).1
    have hs2 := (List.pairwise_cons.mp hs).2
    have hz0 : g z = 0 := (hz z (hin z (by simp))).mpr (by simp)
    have hloz : lo < z := lt_of_le_of_ne (hin z (by simp)).1 (fun h => hl (h ▸ hz0))
    rw [stateAt_cons]
    rcases lt_trichotomy t z with htz | htz | htz
    · rw [if_neg (by linarith), stateAt_later _ _ _ (fun c hc' => by linarith [hs1 c hc'])]
      simp only [decide_eq_true_eq]
      refine same_sign ht.1 (hc.mono (Icc_subset_Icc le_rfl ht.2)) ?_
      intro x hx h0
      have := (hz x ⟨hx.1, hx.2.trans ht.2⟩).mp h0
      rcases List.mem_cons.mp this with rfl | h
      · linarith [hx.2]
      · linarith [hx.2, hs1 x h]
    · exact absurd (htz ▸ hz0) hgt
    · rw [if_pos htz]
      obtain ⟨m, hm, hm'⟩ := exists_before z zs hs1
      obtain ⟨s, hs0, hsδ, hslo, hst, hsm, hsb⟩ : ∃ s > 0, s < δ ∧ s < z - lo ∧ s < t - z ∧ s < m - z ∧ s < b - z := by
        refine ⟨min δ (min (z - lo) (min (t - z) (min (m - z) (b - z)))) / 2, ?_, ?_⟩
        · have : 0 < min δ (min (z - lo) (min (t - z) (min (m - z) (b - z)))) := by
            refine lt_min hδ (lt_min ?_ (lt_min ?_ (lt_min ?_ ?_))) <;> linarith
          linarith
        · have : 0 < min δ (min (z - lo) (min (t - z) (min (m - z) (b - z)))) := by
            refine lt_min hδ (lt_min ?_ (lt_min ?_ (lt_min ?_ ?_))) <;> linarith
          have h1 := min_le_left δ (min (z - lo) (min (t - z) (min (m - z) (b - z))))
          have h2 := min_le_right δ (min (z - lo) (min (t - z) (min (m - z) (b - z))))
          have h3 := min_le_left (z - lo) (min (t - z) (min (m - z) (b - z)))
          have h4 := min_le_right (z - lo) (min (t - z) (min (m - z) (b - z)))
          have h5 := min_le_left (t - z) (min (m - z) (b - z))
          have h6 := min_le_right (t - z) (min (m - z) (b - z))
          have h7 := min_le_left (m - z) (b - z)
          have h8 := min_le_right (m - z) (b - z)
          refine ⟨?_, ?_, ?_, ?_, ?_⟩ <;> linarith
      have hpm := hcross s hs0 hsδ
      have hleft : 0 < g lo ↔ 0 < g (z - s) := by
        refine same_sign (by linarith) (hc.mono (Icc_subset_Icc le_rfl (by linarith))) ?_
        intro x hx h0
        have := (hz x ⟨hx.1, by linarith [hx.2]⟩).mp h0
        rcases List.mem_cons.mp this with rfl | h
        · linarith [hx.2]
        · linarith [hx.2, hs1 x h]
      have hne : g (z + s) ≠ 0 := by rcases hpm with ⟨_, h⟩ | ⟨_, h⟩ <;> [exact h.ne'; exact h.ne]
      have hflip : (!decide (0 < g lo)) = decide (0 < g (z + s)) := by
        rcases hpm with ⟨h1, h2⟩ | ⟨h1, h2⟩
        · have h3 : ¬ 0 < g lo := fun h => by linarith [hleft.mp h]
          rw [decide_eq_false h3, decide_eq_true h2]; rfl
        · rw [decide_eq_true (hleft.mpr h1), decide_eq_false (not_lt.mpr h2.le)]; rfl
      rw [hflip]
      refine ih (z + s) (by linarith) (hc.mono (Icc_subset_Icc (by linarith) le_rfl)) hne hs2 ?_ ?_
        (fun x hx => hcr x (by simp [hx])) t ⟨by linarith, ht.2⟩ hgt
      · intro x hx
        exact ⟨by linarith [hm' x hx], (hin x (by simp [hx])).2⟩
      · intro x hx
        rw [hz x ⟨by linarith [hx.1], hx.2⟩, List.mem_cons]
        constructor
        · rintro (rfl | h)
          · linarith [hx.1]
          · exact h
        · exact Or.inr

theorem state_congr (t : ℝ) {rs zs : List ℝ} (h : List.Forall₂ (fun r z => (r < t ↔ z < t)) rs zs) :
    ∀ s, stateAt s rs t = stateAt s zs t := by
  induction h with
  | nil => intro s; rfl
  | cons h1 _ ih =>
    intro s
    rw [stateAt_cons, stateAt_cons, ih, ih]
    simp only [h1]

/-- Crossings with alternating directions. -/
def mark : Bool → List ℝ → List (LabeledCrossing ℝ)
  | _, [] => []
  | s, r :: rs => ⟨r, if s then -1 else 1⟩ :: mark (!s) rs

theorem times_mark (rs : List ℝ) : ∀ s, times (mark s rs) = rs := by
  induction rs with
  | nil => intro s; rfl
  | cons r rs ih =>
    intro s
    have := ih (!s)
    simp only [times] at this
    simp only [mark, times, List.map_cons, this]

theorem alternates_mark (rs : List ℝ) : ∀ s, Alternates s (mark s rs) := by
  induction rs with
  | nil => intro s; trivial
  | cons r rs ih => intro s; exact ⟨rfl, ih _⟩

theorem near_pairwise {d tol : ℝ} {rs zs : List ℝ} (h : List.Forall₂ (fun r z => |r - z| ≤ tol) rs zs)
    (hz : zs.Pairwise (fun x y => d + 2 * tol ≤ y - x)) : rs.Pairwise (fun x y => d ≤ y - x) := by
  induction h with
  | nil => exact List.Pairwise.nil
  | cons h1 h2 ih =>
    rename_i r z rs zs
    obtain ⟨hz1, hz2⟩ := List.pairwise_cons.mp hz
    refine List.pairwise_cons.mpr ⟨?_, ih hz2⟩
    intro y hy
    obtain ⟨i, hi, rfl⟩ := List.getElem_of_mem hy
    have hi' : i < zs.length := h2.length_eq ▸ hi
    have h3 := (List.forall₂_iff_get.mp h2).2 i hi hi'
    have h4 := hz1 _ (List.getElem_mem hi')
    simp only [List.get_eq_getElem] at h3
    rw [abs_le] at h1 h3
    linarith

theorem near_mem {tol : ℝ} {rs zs : List ℝ} (h : List.Forall₂ (fun r z => |r - z| ≤ tol) rs zs) :
    (∀ r ∈ rs, ∃ z ∈ zs, |r - z| ≤ tol) ∧ (∀ z ∈ zs, ∃ r ∈ rs, |r - z| ≤ tol) := by
  induction h with
  | nil => simp
  | cons h1 _ ih =>
    constructor
    · intro x hx
      rcases List.mem_cons.mp hx with rfl | hx
      · exact ⟨_, by simp, h1⟩
      · obtain ⟨z, hz, hz'⟩ := ih.1 x hx; exact ⟨z, by simp [hz], hz'⟩
    · intro x hx
      rcases List.mem_cons.mp hx with rfl | hx
      · exact ⟨_, by simp, h1⟩
      · obtain ⟨z, hz, hz'⟩ := ih.2 x hx; exact ⟨z, by simp [hz], hz'⟩

/-- Periods built from a list of times near all zeros, in order, are exact up to the tolerance. -/
theorem periods_of_roots (f : ℝ → ℝ) (thr a b tol : ℝ) (rs zs : List ℝ)
    (hab : a + 2 * probeDt ≤ b) (htol : 0 ≤ tol) (hprobe : 2 * tol < probeDt)
    (hc : ContinuousOn (fun t => f t - thr) (Icc a b))
    (hs : zs.Pairwise (fun x y => 2 * probeDt + 2 * tol ≤ y - x))
    (hin : ∀ z ∈ zs, a + 2 * probeDt + tol ≤ z ∧ z ≤ b - 2 * probeDt - tol)
    (hz : ∀ z ∈ Icc a b, f z = thr ↔ z ∈ zs)
    (hcr : ∀ z ∈ zs, Crosses (fun t => f t - thr) z)
    (hnear : List.Forall₂ (fun r z => |r - z| ≤ tol) rs zs) :
    let ps := buildAbovePeriods (labelCrossings rs f thr) a b (decide (f a > thr)) f thr
    WellFormed a b ps ∧
      ∀ t ∈ Icc a b, (∀ z ∈ Icc a b, f z = thr → tol < |t - z|) → (InSome ps t ↔ f t > thr) := by
  intro ps
  have hpp := probeDt_pos
  have hdp := dedupe_lt_probe
  have hab' : a < b := by linarith
  have hinI : ∀ z ∈ zs, z ∈ Icc a b := fun z hz' => ⟨by linarith [(hin z hz').1], by linarith [(hin z hz').2]⟩
  have hga : f a - thr ≠ 0 := by
    intro h
    have := (hz a ⟨le_rfl, hab'.le⟩).mp (by linarith)
    linarith [(hin a this).1]
  have hst : decide (0 < f a - thr) = decide (f a > thr) := by
    apply decide_eq_decide.mpr; constructor <;> intro h <;> linarith
  have hss : zs.Pairwise (· < ·) := hs.imp (fun h => by linarith)
  -- sign from the count of zeros, then of roots
  have hsign : ∀ t ∈ Icc a b, (∀ z ∈ zs, tol < |t - z|) →
      (stateAt (decide (f a > thr)) rs t = true ↔ f t > thr) := by
    intro t ht hfar
    have hgt : f t - thr ≠ 0 := by
      intro h
      have h1 := (hz t ht).mp (by linarith)
      have := hfar t h1
      simp at this
      linarith
    rw [state_congr t (zs := zs) ?_, ← hst, sign_state (fun t => f t - thr) b zs a hab'.le hc hga hss hinI
      (fun z hz' => by rw [← hz z hz']; constructor <;> intro h <;> linarith)
      (fun z hz' => ⟨hcr z hz', by linarith [(hin z hz').2]⟩) t ht hgt]
    · constructor <;> intro h <;> linarith
    · rw [List.forall₂_iff_get] at hnear ⊢
      refine ⟨hnear.1, ?_⟩
      intro i h1 h2
      have h3 := hnear.2 i h1 h2
      have h4 := hfar _ (List.get_mem zs ⟨i, h2⟩)
      rw [abs_le] at h3
      rw [lt_abs] at h4
      constructor <;> intro h <;> rcases h4 with h4 | h4 <;> linarith
  have hrs := near_pairwise hnear hs
  have hrs' : rs.Pairwise (fun x y => dedupeEps ≤ y - x) := hrs.imp (fun h => by linarith)
  obtain ⟨hn1, hn2⟩ := near_mem hnear
  set l := mark (decide (f a > thr)) rs with hl
  have hlt : times l = rs := times_mark rs _
  have halt : Alternates (decide (f a > thr)) l := alternates_mark rs _
  have hbound : ∀ x ∈ rs, a + 2 * probeDt ≤ x ∧ x ≤ b - 2 * probeDt := by
    intro x hx
    obtain ⟨z, hz', h⟩ := hn1 x hx
    have := hin z hz'
    rw [abs_le] at h
    constructor <;> linarith
  have hgap : Gaps b (2 * probeDt) a l := by
    apply gaps_of_pairwise b _ a l hab
    · rw [hlt, List.pairwise_cons]
      exact ⟨fun x hx => by linarith [(hbound x hx).1], hrs⟩
    · rw [hlt]; intro x hx; linarith [(hbound x hx).2]
  have hH : StateOK f thr b tol a (decide (f a > thr)) l := by
    intro t hat htb hfar
    rw [hlt] at hfar ⊢
    refine hsign t ⟨hat.le, htb.le⟩ ?_
    intro z hz'
    obtain ⟨r, hr, hrz⟩ := hn2 z hz'
    have h1 := hfar r (by simp [hr])
    have h2 : |t - r| ≤ |t - z| + |r - z| := by
      have := abs_sub_le t z r
      rwa [abs_sub_comm z r] at this
    linarith
  have hlab := labels_of_state f thr b tol (2 * probeDt) htol hprobe le_rfl l a _ hH hgap halt
  have hmids := midsOK_of_state f thr b tol (2 * probeDt) htol (by linarith) (by linarith) l a _ hH hgap
  have hL : labelCrossings rs f thr = l := by
    unfold labelCrossings
    simp only
    rw [labelSort_id _ hrs', ← hlt, hlab]
  have hps : ps = buildAbovePeriodsDirected l a b (decide (f a > thr)) := by
    show buildAbovePeriods (labelCrossings rs f thr) a b (decide (f a > thr)) f thr = _
    rw [hL]
    refine buildAbove_eq f thr a b _ l halt (times_strict (by rw [hlt]; exact hrs')) ?_ hmids
    rw [hlt]
    intro c hc'
    have := hbound c hc'
    constructor <;> linarith
  rw [hps]
  have hstrict : (times l).Pairwise (· < ·) := times_strict (by rw [hlt]; exact hrs')
  have hbd : ∀ c ∈ times l, a ≤ c ∧ c ≤ b := by
    rw [hlt]; intro c hc'
    have := hbound c hc'
    constructor <;> linarith
  refine ⟨buildDirected_wf a b hab' _ l halt hstrict hbd, ?_⟩
  intro t ht hfar
  have hfar' : ∀ z ∈ zs, tol < |t - z| := fun z hz' => hfar z (hinI z hz') ((hz z (hinI z hz')).mpr hz')
  rw [buildDirected_mem a b t ht.1 ht.2 _ l halt hstrict hbd, hlt]
  · exact hsign t ht hfar'
  · rw [hlt]
    intro h
    obtain ⟨z, hz', h'⟩ := hn1 t h
    linarith [hfar' z hz']

/-! ### Refinement of one prediction -/

theorem bracketLo_eq (a p : ℝ) : bracketLo a p = max (p - bracketHalf) a := by
  unfold bracketLo
  split
  · rename_i h; exact (max_eq_left h).symm
  · rename_i h; exact (max_eq_right (by linarith)).symm

theorem bracketHi_eq (b p : ℝ) : bracketHi b p = min (p + bracketHalf) b := by
  unfold bracketHi
  split
  · rename_i h; exact (min_eq_left h).symm
  · rename_i h; exact (min_eq_right (by linarith)).symm

theorem crosses_bracket {g : ℝ → ℝ} {lo hi z : ℝ} (hc : ContinuousOn g (Icc lo hi)) (h1 : lo < z) (h2 : z < hi)
    (hcr : Crosses g z) (hz : ∀ x ∈ Icc lo hi, g x = 0 → x = z) : SignChange g lo hi := by
  obtain ⟨δ, hδ, hcross⟩ := hcr
  obtain ⟨s, hs0, hsδ, hs1, hs2⟩ : ∃ s > 0, s < δ ∧ s < z - lo ∧ s < hi - z := by
    have hp : 0 < min δ (min (z - lo) (hi - z)) := lt_min hδ (lt_min (by linarith) (by linarith))
    refine ⟨min δ (min (z - lo) (hi - z)) / 2, by linarith, ?_⟩
    have h1 := min_le_left δ (min (z - lo) (hi - z))
    have h2 := min_le_right δ (min (z - lo) (hi - z))
    have h3 := min_le_left (z - lo) (hi - z)
    have h4 := min_le_right (z - lo) (hi - z)
    refine ⟨?_, ?_, ?_⟩ <;> linarith
  have hl : 0 < g lo ↔ 0 < g (z - s) := by
    refine same_sign (by linarith) (hc.mono (Icc_subset_Icc le_rfl (by linarith))) ?_
    intro x hx h0
    have := hz x ⟨hx.1, by linarith [hx.2]⟩ h0
    linarith [hx.2]
  have hr : 0 < g (z + s) ↔ 0 < g hi := by
    refine same_sign (by linarith) (hc.mono (Icc_subset_Icc (by linarith) le_rfl)) ?_
    intro x hx h0
    have := hz x ⟨by linarith [hx.1], hx.2⟩ h0
    linarith [hx.1]
  have hlo : g lo ≠ 0 := fun h => by have := hz lo ⟨le_rfl, by linarith⟩ h; linarith
  have hhi : g hi ≠ 0 := fun h => by have := hz hi ⟨by linarith, le_rfl⟩ h; linarith
  rcases hcross s hs0 hsδ with ⟨h3, h4⟩ | ⟨h3, h4⟩
  · exact Or.inl ⟨lt_of_le_of_ne (not_lt.mp fun h => by linarith [hl.mp h]) hlo, hr.mp h4⟩
  · exact Or.inr ⟨hl.mpr h3, lt_of_le_of_ne (not_lt.mp fun h => by linarith [hr.mpr h]) hhi⟩

theorem refine_near {sg : ℝ → Int} (hsg : RootFinding.Spec.IsSignum sg) {root : RootFinder ℝ} {g : ℝ → ℝ}
    {a b tol ε p z : ℝ} (hc : ContinuousOn g (Icc a b)) (hacc : Accurate root g a b tol)
    (hε : ε < 15 / 1440) (hpz : |p - z| ≤ ε) (hza : a + 1 / 10 ^ 7 ≤ z) (hzb : z ≤ b - 1 / 10 ^ 7)
    (hz0 : g z = 0) (hcr : Crosses g z)
    (hsep : ∀ z' ∈ Icc a b, g z' = 0 → z' ≠ z → 15 / 1440 + ε < |z' - z|) :
    ∃ r, refine sg root g a b p = some r ∧ |r - z| ≤ tol := by
  have hB : bracketHalf = 15 / 1440 := rfl
  rw [abs_le] at hpz
  have h1 : bracketLo a p < z := by rw [bracketLo_eq, hB]; exact max_lt (by linarith) (by linarith)
  have h2 : z < bracketHi b p := by rw [bracketHi_eq, hB]; exact lt_min (by linarith) (by linarith)
  have h3 : a ≤ bracketLo a p := by rw [bracketLo_eq]; exact le_max_right _ _
  have h4 : bracketHi b p ≤ b := by rw [bracketHi_eq]; exact min_le_right _ _
  have huniq : ∀ x ∈ Icc (bracketLo a p) (bracketHi b p), g x = 0 → x = z := by
    intro x hx h0
    by_contra hne
    have h5 := hsep x ⟨h3.trans hx.1, hx.2.trans h4⟩ h0 hne
    have h6 : p - 15 / 1440 ≤ x := le_trans (by rw [bracketLo_eq, hB]; exact le_max_left _ _) hx.1
    have h7 : x ≤ p + 15 / 1440 := le_trans hx.2 (by rw [bracketHi_eq, hB]; exact min_le_left _ _)
    rw [lt_abs] at h5
    rcases h5 with h5 | h5 <;> linarith
  have hsc := crosses_bracket (hc.mono (Icc_subset_Icc h3 h4)) h1 h2 hcr huniq
  obtain ⟨r, z', hr, hr1, hz1, hz2, hrz⟩ := hacc _ _ h3 (h1.trans h2) h4 hsc
  have : z' = z := huniq z' hz1 hz2
  subst this
  refine ⟨r, ?_, hrz⟩
  unfold refine
  simp only
  rw [if_neg, if_pos, hr]
  · simp only
    rw [if_pos ⟨h3.trans hr1.1, hr1.2.trans h4⟩]
  · rcases hsc with ⟨h5, h6⟩ | ⟨h5, h6⟩
    · rw [hsg.2 _ h5, hsg.1 _ h6]; norm_num
    · rw [hsg.1 _ h5, hsg.2 _ h6]; norm_num
  · rw [not_lt, bracketLo_eq, bracketHi_eq, hB]
    have : (1 : ℝ) / 10 ^ 12 ≤ 1 / 10 ^ 7 := by norm_num
    rcases max_cases (p - 15 / 1440) a with ⟨h, _⟩ | ⟨h, _⟩ <;>
      rcases min_cases (p + 15 / 1440) b with ⟨h', _⟩ | ⟨h', _⟩ <;> rw [h, h'] <;> linarith

theorem refine_all {sg : ℝ → Int} {root : RootFinder ℝ} {g : ℝ → ℝ} {a b tol ε : ℝ} {ps : List (ℝ × Int)}
    {zs : List ℝ} (h : List.Forall₂ (fun q z => |q.1 - z| ≤ ε) ps zs)
    (hall : ∀ p, ∀ z ∈ zs, |p - z| ≤ ε → ∃ r, refine sg root g a b p = some r ∧ |r - z| ≤ tol) :
    List.Forall₂ (fun r z => |r - z| ≤ tol) (ps.filterMap fun q => refine sg root g a b q.1) zs := by
  induction h with
  | nil => exact List.Forall₂.nil
  | cons h1 _ ih =>
    obtain ⟨r, hr, hr'⟩ := hall _ _ (by simp) h1
    rw [List.filterMap_cons, hr]
    exact List.Forall₂.cons hr' (ih fun p z hz => hall p z (by simp [hz]))

end Verif.Stellar
