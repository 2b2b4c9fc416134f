import Verif.Search.Brent
import Verif.Search.Sort

namespace Verif.Search
open Verif.Search.Spec
open Verif.Event (LabeledCrossing sortAndDedup nextTime gridCells gridCells_chain gridCells_get Chain dedupeEps)

variable {F : Type} [Field F] [LinearOrder F]

/-- Everything one cell of the scan contributes. -/
def cellEvents (g : F → F) (a b step timeTol resTol : F) (c : F × F) : List (LabeledCrossing F) :=
  sampleEvents g a b step resTol c.1 (g c.1) ++ sampleEvents g a b step resTol c.2 (g c.2) ++
    refinedEvents g a b timeTol resTol c.1 c.2 (g c.1) (g c.2)

theorem scanLoop_eq (g : F → F) (a b step timeTol resTol : F) (n : Nat) (t : F) :
    scanLoop g a b step timeTol resTol n t (g t)
      = (gridCells b step n t).map (fun cs => cs.flatMap (cellEvents g a b step timeTol resTol)) := by
  induction n generalizing t with
  | zero => rfl
  | succ n ih =>
    simp only [scanLoop, gridCells]
    by_cases h : t < b
    · simp only [h, if_true]
      rw [ih, Option.map_map, Option.map_map]
      congr 1
    · simp [h]

variable [IsStrictOrderedRing F]

theorem clampTo_mem {x lo hi : F} (h : lo ≤ hi) : lo ≤ clampTo x lo hi ∧ clampTo x lo hi ≤ hi := by
  unfold clampTo
  split
  · exact ⟨le_rfl, h⟩
  · rename_i h1
    split
    · exact ⟨h, le_rfl⟩
    · rename_i h2
      exact ⟨not_lt.mp h1, not_lt.mp h2⟩

theorem probe_bounds (x : F) : 0 < clampTo x (1 / 10 ^ 7) (1 / 10 ^ 3) ∧
    clampTo x (1 / 10 ^ 7) (1 / 10 ^ 3) ≤ (1 / 1000 : F) := by
  have h : (1 / 10 ^ 7 : F) ≤ 1 / 10 ^ 3 := by norm_num
  have := clampTo_mem (x := x) h
  have p : (0 : F) < 1 / 10 ^ 7 := by positivity
  refine ⟨by linarith [this.1], this.2.trans (by norm_num)⟩

theorem endpointDirection_spec {g : F → F} {t a b step eps gap : F} {dir : Int}
    (hw : machineEps < b - a) (ha : a ≤ t) (hb : t ≤ b) (hg : |g t| ≤ eps) (hgap : 1 / 500 ≤ gap)
    (h : endpointDirection g t a b step = some dir) : Labelled g a b eps gap t dir := by
  unfold endpointDirection at h
  dsimp only at h
  have hp := probe_bounds (step * (1 / 4))
  generalize clampTo (step * (1 / 4)) (1 / 10 ^ 7) (1 / 10 ^ 3) = p at h hp
  have heps : 0 ≤ eps := (abs_nonneg _).trans hg
  obtain ⟨g1, g2⟩ := abs_le.mp hg
  split at h
  · cases h
  rename_i hlr
  have hlr := not_le.mp hlr
  have l1 : a ≤ max (t - p) a := le_max_right _ _
  have l2 : max (t - p) a ≤ t := max_le (by linarith) ha
  have r1 : t ≤ min (t + p) b := le_min (by linarith) hb
  have r2 : min (t + p) b ≤ b := min_le_right _ _
  have w1 : min (t + p) b ≤ t + p := min_le_left _ _
  have w2 : t - p ≤ max (t - p) a := le_max_left _ _
  have s1 : t < b → t < min (t + p) b := fun h => lt_min (by linarith) h
  have s2 : a < t → max (t - p) a < t := fun h => max_lt (by linarith) h
  generalize max (t - p) a = x at *
  generalize min (t + p) b = y at *
  unfold Labelled Downward Upward
  split at h
  · -- at the start
    rename_i hs
    have hty : t < y := s1 (by have := (abs_le.mp hs).2; linarith)
    split at h
    · rename_i hr
      cases h
      exact Or.inl ⟨rfl, t, y, ha, le_rfl, hty.le, r2, hty, by linarith, g2, by linarith, Or.inr hr⟩
    · split at h
      · rename_i hr
        cases h
        exact Or.inr ⟨rfl, t, y, ha, le_rfl, hty.le, r2, hty, by linarith, by linarith, by linarith,
          Or.inr (by linarith)⟩
      · cases h
  · split at h
    · rename_i hs
      have hxt : x < t := s2 (by have := (abs_le.mp hs).1; linarith)
      split at h
      · rename_i hr
        cases h
        exact Or.inl ⟨rfl, x, t, l1, hxt.le, le_rfl, hb, hxt, by linarith, by linarith, g1, Or.inl hr⟩
      · split at h
        · rename_i hr
          cases h
          exact Or.inr ⟨rfl, x, t, l1, hxt.le, le_rfl, hb, hxt, by linarith, by linarith, by linarith,
            Or.inl (by linarith)⟩
        · cases h
    · split at h
      · rename_i hr
        cases h
        exact Or.inl ⟨rfl, x, y, l1, l2, r1, r2, hlr, by linarith, by linarith [hr.1], by linarith [hr.2],
          Or.inr hr.2⟩
      · split at h
        · rename_i hr
          cases h
          exact Or.inr ⟨rfl, x, y, l1, l2, r1, r2, hlr, by linarith, by linarith [hr.1],
            by linarith [hr.2], Or.inl (by linarith [hr.1])⟩
        · cases h

theorem sampleEvents_spec {g : F → F} {a b step timeTol resTol gap t : F} (hw : machineEps < b - a)
    (ha : a ≤ t) (hb : t ≤ b) (hgap : 1 / 500 ≤ gap) {e : LabeledCrossing F}
    (h : e ∈ sampleEvents g a b step resTol t (g t)) :
    e.t = t ∧ Located g a b resTol timeTol e.t ∧ Labelled g a b resTol gap e.t e.direction := by
  unfold sampleEvents at h
  split at h
  · rename_i hg
    split at h
    · rename_i dir hd
      rw [List.mem_singleton] at h
      subst h
      exact ⟨rfl, Or.inl hg, endpointDirection_spec hw ha hb hg hgap hd⟩
    · simp at h
  · simp at h

/-- The side condition under which the bracket of `brent_f64` cannot be left: the spacing of floating
point numbers around the window is small against the time tolerance. -/
def Fine (a b timeTol : F) : Prop := ∀ x, a ≤ x → x ≤ b → 4 * machineEps * |x| ≤ 3 * timeTol

theorem located_mono {g : F → F} {lo hi lo' hi' resTol timeTol r : F} (h1 : lo' ≤ lo) (h2 : hi ≤ hi')
    (h : Located g lo hi resTol timeTol r) : Located g lo' hi' resTol timeTol r := by
  rcases h with h | ⟨y, y1, y2, y3, y4⟩
  · exact Or.inl h
  · exact Or.inr ⟨y, h1.trans y1, y2.trans h2, y3, y4⟩

theorem refinedEvents_spec {g : F → F} {a b timeTol resTol gap t next : F} (htol : 0 < timeTol)
    (hres : 0 ≤ resTol) (hT : Fine a b timeTol) (ha : a ≤ t) (htn : t < next) (hb : next ≤ b)
    (hgap : next - t ≤ gap) {e : LabeledCrossing F}
    (h : e ∈ refinedEvents g a b timeTol resTol t next (g t) (g next)) :
    t ≤ e.t ∧ e.t ≤ next ∧ Located g a b resTol timeTol e.t ∧
      Labelled g a b resTol gap e.t e.direction := by
  unfold refinedEvents at h
  split at h
  · rename_i ho
    rw [opposite_iff] at ho
    split at h
    · rename_i root hr
      split at h
      · rw [List.mem_singleton] at h
        subst h
        obtain ⟨s1, s2, s3⟩ := brentF64_sound htol
          (fun x h1 h2 => hT x (ha.trans h1) (h2.trans hb)) hr
        refine ⟨s1, s2, located_mono ha hb s3, ?_⟩
        unfold Labelled Downward Upward
        rcases ho with ho | ho
        · left
          refine ⟨by simp [ho.1], t, next, ha, s1, s2, hb, htn, hgap, by linarith [ho.1],
            by linarith [ho.2], Or.inl ho.1⟩
        · right
          refine ⟨by simp [ho.1], t, next, ha, s1, s2, hb, htn, hgap, by linarith [ho.1],
            by linarith [ho.2], Or.inr (by linarith [ho.2])⟩
      · simp at h
    · simp at h
  · simp at h

/-- The cells of the grid are proper, lie in the window, and are not wider than the step. -/
theorem gridCells_bounds {b step : F} (hstep : 0 < step) (n : Nat) (t : F) (ht : t ≤ b)
    {cs : List (F × F)} (h : gridCells b step n t = some cs) :
    ∀ c ∈ cs, t ≤ c.1 ∧ c.1 < c.2 ∧ c.2 ≤ b ∧ c.2 - c.1 ≤ step := by
  induction n generalizing t cs with
  | zero => simp [gridCells] at h
  | succ n ih =>
    simp only [gridCells] at h
    by_cases htb : t < b
    · simp only [htb, if_true, Option.map_eq_some_iff] at h
      obtain ⟨cs', h', rfl⟩ := h
      rw [Verif.Event.nextTime_eq_min] at h' ⊢
      intro c hc
      have hlt : t < min (t + step) b := lt_min (by linarith) htb
      rcases List.mem_cons.mp hc with rfl | hc
      · exact ⟨le_rfl, hlt, min_le_right _ _, by
          have := min_le_left (t + step) b
          dsimp only; linarith⟩
      · obtain ⟨i1, i2⟩ := ih _ (min_le_right _ _) h' c hc
        exact ⟨hlt.le.trans i1, i2⟩
    · simp only [htb, if_false, Option.some.injEq] at h
      subst h
      simp

theorem effStep_pos (step : F) : 0 < max step minSegmentDays :=
  lt_of_lt_of_le (by unfold minSegmentDays; positivity) (le_max_right _ _)

theorem effTime_pos (x : F) : 0 < max x machineEps := lt_of_lt_of_le machineEps_pos (le_max_right _ _)

theorem effRes_pos (x : F) : 0 < max x polyZeroTol :=
  lt_of_lt_of_le (by unfold polyZeroTol; positivity) (le_max_right _ _)

/-- The scan as a function of its grid. -/
theorem scan_eq {fuel : Nat} {a b step : F} {signal : F → F} {thr timeTol maxRes : F} (hab : a < b) :
    scanLabelledCrossings fuel a b step signal thr timeTol maxRes =
      (gridCells b (max step minSegmentDays) fuel a).map (fun cs => sortAndDedup
        (cs.flatMap (cellEvents (fun t => signal t - thr) a b (max step minSegmentDays)
          (max timeTol machineEps) (max maxRes polyZeroTol)))) := by
  unfold scanLabelledCrossings
  rw [if_neg (not_le.mpr hab)]
  dsimp only
  rw [scanLoop_eq (fun t => signal t - thr), Option.map_map]
  rfl

theorem scan_sound {fuel : Nat} {a b step : F} {signal : F → F} {thr timeTol maxRes : F}
    (hw : machineEps < b - a) (hT : Fine a b (max timeTol machineEps)) {l : List (LabeledCrossing F)}
    (h : scanLabelledCrossings fuel a b step signal thr timeTol maxRes = some l) :
    ∀ e ∈ l, a ≤ e.t ∧ e.t ≤ b ∧
      Located (fun t => signal t - thr) a b (max maxRes polyZeroTol) (max timeTol machineEps) e.t ∧
      Labelled (fun t => signal t - thr) a b (max maxRes polyZeroTol)
        (max (max step minSegmentDays) (1 / 500)) e.t e.direction := by
  have hab : a < b := by have := machineEps_pos (F := F); linarith
  rw [scan_eq hab, Option.map_eq_some_iff] at h
  obtain ⟨cs, hcs, rfl⟩ := h
  intro e he
  have he := sortAndDedup_subset _ _ he
  obtain ⟨c, hc, he⟩ := List.mem_flatMap.mp he
  obtain ⟨c1, c2, c3, c4⟩ := gridCells_bounds (effStep_pos step) fuel a hab.le hcs c hc
  unfold cellEvents at he
  simp only [List.mem_append] at he
  rcases he with (he | he) | he
  · obtain ⟨e1, e2, e3⟩ := sampleEvents_spec (timeTol := max timeTol machineEps) hw c1
      (c2.le.trans c3) (le_max_right (max step minSegmentDays) (1 / 500)) he
    exact ⟨e1 ▸ c1, e1 ▸ (c2.le.trans c3), e2, e3⟩
  · obtain ⟨e1, e2, e3⟩ := sampleEvents_spec (timeTol := max timeTol machineEps) hw
      (c1.trans c2.le) c3 (le_max_right (max step minSegmentDays) (1 / 500)) he
    exact ⟨e1 ▸ (c1.trans c2.le), e1 ▸ c3, e2, e3⟩
  · obtain ⟨e1, e2, e3, e4⟩ := refinedEvents_spec (effTime_pos timeTol) (effRes_pos maxRes).le hT c1 c2
      c3 (c4.trans (le_max_left _ (1 / 500))) he
    exact ⟨c1.trans e1, e2.trans c3, e3, e4⟩

/-- A cell whose ends lie on different sides yields a crossing, when the refinement answers. -/
theorem scan_complete {fuel : Nat} {a b step : F} {signal : F → F} {thr timeTol maxRes : F}
    (hab : a < b) (hT : Fine a b (max timeTol machineEps)) {cs : List (F × F)}
    {l : List (LabeledCrossing F)} (hcs : gridCells b (max step minSegmentDays) fuel a = some cs)
    (h : scanLabelledCrossings fuel a b step signal thr timeTol maxRes = some l)
    (c : F × F) (hc : c ∈ cs) (ho : Opposite (signal c.1 - thr) (signal c.2 - thr))
    (hans : (brentF64 c.1 c.2 (signal c.1 - thr) (signal c.2 - thr) (fun t => signal t - thr)
      (max timeTol machineEps) (max maxRes polyZeroTol)).isSome) :
    ∃ r, c.1 ≤ r ∧ r ≤ c.2 ∧ ∃ e ∈ l, |r - e.t| < dedupeEps := by
  rw [scan_eq hab, hcs] at h
  simp only [Option.map_some, Option.some.injEq] at h
  subst h
  obtain ⟨c1, c2, c3, c4⟩ := gridCells_bounds (effStep_pos step) fuel a hab.le hcs c hc
  obtain ⟨r, hr⟩ := Option.isSome_iff_exists.mp hans
  obtain ⟨s1, s2, -⟩ := brentF64_sound (f := fun t => signal t - thr) (effTime_pos timeTol)
    (fun x h1 h2 => hT x (c1.trans h1) (h2.trans c3)) hr
  refine ⟨r, s1, s2, ?_⟩
  apply sortAndDedup_near _ ⟨r, if signal c.1 - thr < 0 then 1 else -1⟩
  rw [List.mem_flatMap]
  refine ⟨c, hc, ?_⟩
  unfold cellEvents
  refine List.mem_append_right _ ?_
  unfold refinedEvents
  rw [if_pos ((opposite_iff _ _).mpr ho)]
  simp only [hr]
  rw [if_pos ⟨c1.trans s1, s2.trans c3⟩]
  simp

/-- Discrete intermediate value: different sides at the ends of the window give a cell with different
sides at its ends. -/
theorem exists_opposite_cell {g : F → F} {b : F} {t : F} {cs : List (F × F)} (hch : Chain b t cs)
    (ho : Opposite (g t) (g b)) : ∃ c ∈ cs, Opposite (g c.1) (g c.2) := by
  induction hch with
  | nil =>
    rcases ho with ho | ho
    · exact absurd ho.1 (not_lt.mpr ho.2)
    · exact absurd ho.2 (not_lt.mpr ho.1)
  | cons lo hi cs h1 h2 hch ih =>
    by_cases hc : Opposite (g lo) (g hi)
    · exact ⟨_, List.mem_cons_self, hc⟩
    · obtain ⟨c, hc1, hc2⟩ := ih (by
        rcases opposite_third ho (g hi) with h | h
        · exact absurd (opposite_symm h) hc
        · exact h)
      exact ⟨c, List.mem_cons_of_mem _ hc1, hc2⟩

end Verif.Search
