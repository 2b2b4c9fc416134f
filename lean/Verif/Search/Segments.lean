import Verif.Search.Scan

namespace Verif.Search
open Verif.Search.Spec
open Verif.Event (LabeledCrossing sortAndDedup nextTime gridCells gridCells_chain Chain dedupeEps)

variable {F : Type} [Field F] [LinearOrder F]

/-- The refinement finds a root in every bracket of `[lo, hi]` whose ends lie on different sides. -/
def Answers (g : F → F) (lo hi timeTol resTol : F) : Prop :=
  ∀ x y, lo ≤ x → x < y → y ≤ hi → Opposite (g x) (g y) →
    (brentF64 x y (g x) (g y) g timeTol resTol).isSome

/-- What is claimed of one reported crossing. -/
def Genuine (g : F → F) (cfg : Config F) (step lo hi : F) (e : LabeledCrossing F) : Prop :=
  Located g lo hi (max cfg.maxResidual polyZeroTol) (max cfg.timeTolerance machineEps) e.t ∧
    Labelled g lo hi (max cfg.maxResidual polyZeroTol) (max (max step minSegmentDays) (1 / 500))
      e.t e.direction

variable [IsStrictOrderedRing F]

theorem labelled_mono {g : F → F} {lo hi lo' hi' eps gap t : F} {d : Int} (h1 : lo' ≤ lo)
    (h2 : hi ≤ hi') (h : Labelled g lo hi eps gap t d) : Labelled g lo' hi' eps gap t d := by
  rcases h with ⟨hd, x, y, k1, k2, k3, k4, k5⟩ | ⟨hd, x, y, k1, k2, k3, k4, k5⟩
  · exact Or.inl ⟨hd, x, y, h1.trans k1, k2, k3, k4.trans h2, k5⟩
  · exact Or.inr ⟨hd, x, y, h1.trans k1, k2, k3, k4.trans h2, k5⟩

theorem fine_mono {a b t t' : F} (h : t ≤ t') (hf : Fine a b t) : Fine a b t' :=
  fun x h1 h2 => (hf x h1 h2).trans (by linarith)

theorem fine_sub {a b a' b' t : F} (h1 : a ≤ a') (h2 : b' ≤ b) (hf : Fine a b t) : Fine a' b' t :=
  fun x k1 k2 => hf x (h1.trans k1) (k2.trans h2)

theorem timeFromUnit_mem {a b : F} (h : a ≤ b) (x : F) :
    a ≤ timeFromUnit a b x ∧ timeFromUnit a b x ≤ b := by
  unfold timeFromUnit
  have hc := clampTo_mem (x := x) (by norm_num : (-1 : F) ≤ 1)
  generalize clampTo x (-1) 1 = u at hc
  have h0 : 0 ≤ b - a := by linarith
  constructor
  · nlinarith [mul_nonneg h0 (by linarith [hc.1] : (0 : F) ≤ (u + 1) * (1 / 2))]
  · nlinarith [mul_nonneg h0 (by linarith [hc.2] : (0 : F) ≤ 1 - (u + 1) * (1 / 2))]

theorem refineLoop_mem {g : F → F} {a b initial timeTol maxRes : F} (htol : 0 < timeTol)
    (hT : Fine a b timeTol) (n : Nat) : ∀ radius r,
    refineLoop g a b initial timeTol maxRes n radius = some r → a ≤ r ∧ r ≤ b := by
  induction n with
  | zero => intro radius r h; cases h
  | succ n ih =>
    intro radius r h
    unfold refineLoop at h
    dsimp only at h
    have hag : ∀ r', (if initial - radius * 2 ≤ a ∧ b ≤ initial + radius * 2 then none
        else refineLoop g a b initial timeTol maxRes n (radius * 2)) = some r' → a ≤ r' ∧ r' ≤ b := by
      intro r' h'
      split at h'
      · cases h'
      · exact ih _ _ h'
    have l1 : a ≤ max (initial - radius) a := le_max_right _ _
    have l2 : min (initial + radius) b ≤ b := min_le_right _ _
    generalize max (initial - radius) a = lo at l1 h
    generalize min (initial + radius) b = hi at l2 h
    split at h
    · rename_i hlt
      split at h
      · cases h; exact ⟨l1, hlt.le.trans l2⟩
      · split at h
        · cases h; exact ⟨l1.trans hlt.le, l2⟩
        · split at h
          · obtain ⟨s1, s2, -⟩ := brentF64_sound htol
              (fun x h1 h2 => hT x (l1.trans h1) (h2.trans l2)) h
            exact ⟨l1.trans s1, s2.trans l2⟩
          · exact hag r h
    · exact hag r h

theorem eps12 : (machineEps : F) ≤ 1 / 10 ^ 12 := by
  unfold machineEps
  rw [div_le_div_iff₀ (by positivity) (by positivity)]
  norm_num

theorem refinePreciseRoot_mem {g : F → F} {cfg : Config F} {a b initial r : F} (hab : a ≤ b)
    (hT : Fine a b (max cfg.timeTolerance machineEps))
    (h : refinePreciseRoot g cfg a b initial = some r) : a ≤ r ∧ r ≤ b := by
  unfold refinePreciseRoot at h
  dsimp only at h
  split at h
  · cases h
    exact clampTo_mem hab
  · refine refineLoop_mem (lt_of_lt_of_le (by positivity) (le_max_right _ (1 / 10 ^ 12))) ?_ 8 _ _ h
    exact fine_mono (max_le_max le_rfl eps12) hT

theorem classify_spec {g : F → F} {cfg : Config F} {pStart pEnd t gap : F} {d : Int}
    (ha : pStart ≤ t) (hb : t ≤ pEnd) (hgap : 1 / 500 ≤ gap)
    (h : classifyDirection g cfg pStart pEnd t = some d) :
    Labelled g pStart pEnd (max cfg.maxResidual polyZeroTol) gap t d := by
  unfold classifyDirection at h
  dsimp only at h
  have hp : (0 : F) < clampTo cfg.refineMargin (1 / 10 ^ 6) (1 / 10 ^ 3) ∧
      clampTo cfg.refineMargin (1 / 10 ^ 6) (1 / 10 ^ 3) ≤ (1 / 1000 : F) := by
    have h : (1 / 10 ^ 6 : F) ≤ 1 / 10 ^ 3 := by norm_num
    have := clampTo_mem (x := cfg.refineMargin) h
    have p : (0 : F) < 1 / 10 ^ 6 := by positivity
    exact ⟨by linarith [this.1], this.2.trans (by norm_num)⟩
  generalize clampTo cfg.refineMargin (1 / 10 ^ 6) (1 / 10 ^ 3) = p at h hp
  have he : (0 : F) < max cfg.maxResidual (1 / 10 ^ 12) :=
    lt_of_lt_of_le (by positivity) (le_max_right _ _)
  have hee : max cfg.maxResidual polyZeroTol = max cfg.maxResidual (1 / 10 ^ 12 : F) := rfl
  rw [hee]
  generalize max cfg.maxResidual (1 / 10 ^ 12 : F) = eps at h he
  split at h
  · cases h
  rename_i hlr
  have hlr := not_le.mp hlr
  have l1 : pStart ≤ max (t - p) pStart := le_max_right _ _
  have l2 : max (t - p) pStart ≤ t := max_le (by linarith) ha
  have r1 : t ≤ min (t + p) pEnd := le_min (by linarith) hb
  have r2 : min (t + p) pEnd ≤ pEnd := min_le_right _ _
  have w1 : min (t + p) pEnd ≤ t + p := min_le_left _ _
  have w2 : t - p ≤ max (t - p) pStart := le_max_left _ _
  generalize max (t - p) pStart = x at *
  generalize min (t + p) pEnd = y at *
  unfold Labelled Downward Upward
  split at h
  · rename_i hr
    cases h
    exact Or.inl ⟨rfl, x, y, l1, l2, r1, r2, hlr, by linarith, by linarith [hr.1], by linarith [hr.2],
      Or.inr (by linarith [hr.2])⟩
  split at h
  · rename_i hr
    cases h
    exact Or.inr ⟨rfl, x, y, l1, l2, r1, r2, hlr, by linarith, by linarith [hr.1], by linarith [hr.2],
      Or.inl (by linarith [hr.1])⟩
  split at h
  · rename_i hr
    cases h
    exact Or.inl ⟨rfl, x, y, l1, l2, r1, r2, hlr, by linarith, by linarith [hr.1], by linarith [hr.2],
      Or.inl (by linarith [hr.1])⟩
  split at h
  · rename_i hr
    cases h
    exact Or.inr ⟨rfl, x, y, l1, l2, r1, r2, hlr, by linarith, by linarith [hr.1], by linarith [hr.2],
      Or.inr (by linarith [hr.2])⟩
  · cases h

theorem validateCandidate_spec {g : F → F} {cfg : Config F} {step pStart pEnd a b x : F}
    (h1 : pStart ≤ a) (hab : a ≤ b) (h2 : b ≤ pEnd)
    (hT : Fine a b (max cfg.timeTolerance machineEps)) {e : LabeledCrossing F}
    (h : validateCandidate g cfg pStart pEnd a b x = some e) :
    a ≤ e.t ∧ e.t ≤ b ∧ Genuine g cfg step pStart pEnd e := by
  unfold validateCandidate at h
  dsimp only at h
  rw [Option.bind_eq_some_iff] at h
  obtain ⟨r, hr, h⟩ := h
  have hmem : a ≤ r ∧ r ≤ b := by
    split at hr
    · exact refinePreciseRoot_mem hab hT hr
    · cases hr
      exact timeFromUnit_mem hab x
  split at h
  · cases h
  rename_i hres
  rw [Option.map_eq_some_iff] at h
  obtain ⟨d, hd, rfl⟩ := h
  exact ⟨hmem.1, hmem.2, Or.inl ((not_lt.mp hres).trans (le_max_left _ _)),
    classify_spec (h1.trans hmem.1) (hmem.2.trans h2) (le_max_right _ _) hd⟩

theorem validateAll_spec {g : F → F} {cfg : Config F} {step pStart pEnd a b : F} {slope : F → F}
    (h1 : pStart ≤ a) (hab : a ≤ b) (h2 : b ≤ pEnd)
    (hT : Fine a b (max cfg.timeTolerance machineEps)) (xs : List F) :
    ∀ l, validateAll g cfg pStart pEnd a b slope xs = some l →
      l.length = xs.length ∧ ∀ e ∈ l, a ≤ e.t ∧ e.t ≤ b ∧ Genuine g cfg step pStart pEnd e := by
  induction xs with
  | nil => intro l h; cases h; simp
  | cons x xs ih =>
    intro l h
    unfold validateAll at h
    split at h
    · cases h
    rw [Option.bind_eq_some_iff] at h
    obtain ⟨c, hc, h⟩ := h
    rw [Option.map_eq_some_iff] at h
    obtain ⟨l', hl', rfl⟩ := h
    obtain ⟨i1, i2⟩ := ih l' hl'
    refine ⟨by simp [i1], fun e he => ?_⟩
    rcases List.mem_cons.mp he with rfl | he
    · exact validateCandidate_spec h1 hab h2 hT hc
    · exact i2 e he

/-- What one segment contributes: genuine crossings of the segment, and at least one when its ends
lie on different sides. -/
def SegmentOk (g : F → F) (cfg : Config F) (step pStart pEnd a b : F) (l : List (LabeledCrossing F)) :
    Prop :=
  (∀ e ∈ l, a ≤ e.t ∧ e.t ≤ b ∧ Genuine g cfg step pStart pEnd e) ∧
    (Answers g pStart pEnd (max cfg.timeTolerance machineEps) (max cfg.maxResidual polyZeroTol) →
      Opposite (g a) (g b) → ∃ e ∈ l, a ≤ e.t ∧ e.t ≤ b)

theorem fallback_ok {fuel : Nat} {signal : F → F} {thr : F} {cfg : Config F} {step pStart pEnd a b : F}
    (h1 : pStart ≤ a) (hw : machineEps < b - a) (h2 : b ≤ pEnd)
    (hT : Fine a b (max cfg.timeTolerance machineEps)) {l : List (LabeledCrossing F)}
    (h : fallbackSegment fuel signal thr cfg step a b = some l) :
    SegmentOk (fun t => signal t - thr) cfg step pStart pEnd a b l := by
  unfold fallbackSegment at h
  have hab : a < b := by have := machineEps_pos (F := F); linarith
  have hs := scan_sound hw hT h
  refine ⟨fun e he => ?_, fun hans ho => ?_⟩
  · obtain ⟨k1, k2, k3, k4⟩ := hs e he
    exact ⟨k1, k2, located_mono h1 h2 k3, labelled_mono h1 h2 k4⟩
  · have hcs : ∃ cs, gridCells b (max step minSegmentDays) fuel a = some cs := by
      rw [scan_eq hab, Option.map_eq_some_iff] at h
      obtain ⟨cs, hcs, -⟩ := h
      exact ⟨cs, hcs⟩
    obtain ⟨cs, hcs⟩ := hcs
    obtain ⟨c, hc, hoc⟩ := exists_opposite_cell (g := fun t => signal t - thr)
      (gridCells_chain b _ (effStep_pos step) fuel a hab.le cs hcs) ho
    obtain ⟨c1, c2, c3, -⟩ := gridCells_bounds (effStep_pos step) fuel a hab.le hcs c hc
    obtain ⟨r, -, -, e, he, -⟩ := scan_complete hab hT hcs h c hc hoc
      (hans c.1 c.2 (h1.trans c1) c2 (c3.trans h2) hoc)
    exact ⟨e, he, (hs e he).1, (hs e he).2.1⟩

theorem fromRoots_ok {fuel : Nat} {signal : F → F} {thr : F} {cfg : Config F}
    {step pStart pEnd a b : F} {p : Fitted F}
    (h1 : pStart ≤ a) (hw : machineEps < b - a) (h2 : b ≤ pEnd)
    (hT : Fine a b (max cfg.timeTolerance machineEps)) {l : List (LabeledCrossing F)}
    (h : fromRoots fuel signal thr cfg step pStart pEnd a b p = some l) :
    SegmentOk (fun t => signal t - thr) cfg step pStart pEnd a b l := by
  have hab : a < b := by have := machineEps_pos (F := F); linarith
  unfold fromRoots at h
  dsimp only at h
  split at h
  · exact fallback_ok h1 hw h2 hT h
  rename_i hempty
  split at h
  · rename_i cs hcs
    cases h
    obtain ⟨k1, k2⟩ := validateAll_spec (step := step) h1 hab.le h2 hT _ _ hcs
    refine ⟨k2, fun _ ho => ?_⟩
    have hne : p.roots ≠ [] := by
      intro hnil
      apply hempty
      rw [hnil]
      simp only [List.isEmpty_nil, Bool.true_and]
      unfold hiddenSignChange
      dsimp only
      rw [if_pos ((opposite_iff _ _).mpr ho)]
    cases l with
    | nil => rw [List.length_nil] at k1; exact absurd (List.length_eq_zero_iff.mp k1.symm) hne
    | cons e es => exact ⟨e, by simp, (k2 e (by simp)).1, (k2 e (by simp)).2.1⟩
  · exact fallback_ok h1 hw h2 hT h

theorem segment_ok {fit : Fit F} {fuel : Nat} {signal : F → F} {thr : F} {cfg : Config F}
    {step pStart pEnd : F} (k : Nat) : ∀ {a b : F}, pStart ≤ a → machineEps < b - a → b ≤ pEnd →
    Fine a b (max cfg.timeTolerance machineEps) → ∀ {l : List (LabeledCrossing F)},
    segmentCrossings fit fuel signal thr cfg step pStart pEnd k a b = some l →
    SegmentOk (fun t => signal t - thr) cfg step pStart pEnd a b l := by
  induction k with
  | zero =>
    intro a b h1 hw h2 hT l h
    unfold segmentCrossings at h
    split at h
    · rename_i hn
      have := machineEps_pos (F := F)
      exact absurd (by linarith) hn
    split at h
    · exact fallback_ok h1 hw h2 hT h
    split at h
    · exact fallback_ok h1 hw h2 hT h
    split at h
    · split at h <;> exact fallback_ok h1 hw h2 hT h
    · exact fromRoots_ok h1 hw h2 hT h
  | succ k ih =>
    intro a b h1 hw h2 hT l h
    unfold segmentCrossings at h
    split at h
    · rename_i hn
      have := machineEps_pos (F := F)
      exact absurd (by linarith) hn
    split at h
    · exact fallback_ok h1 hw h2 hT h
    rename_i hlong
    split at h
    · exact fallback_ok h1 hw h2 hT h
    split at h
    · split at h
      · dsimp only at h
        rw [Option.bind_eq_some_iff] at h
        obtain ⟨l1, hl1, h⟩ := h
        rw [Option.map_eq_some_iff] at h
        obtain ⟨l2, hl2, rfl⟩ := h
        have hlong : (1 / 10 ^ 6 : F) ≤ b - a := not_lt.mp hlong
        have heps : (machineEps : F) < 1 / 10 ^ 6 * (1 / 2) :=
          lt_of_le_of_lt eps12 (by norm_num)
        set m := a + (b - a) * (1 / 2) with hm
        have m1 : machineEps < m - a := by rw [hm]; linarith
        have m2 : machineEps < b - m := by rw [hm]; linarith
        have ha : a ≤ m := by have := machineEps_pos (F := F); linarith
        have hb : m ≤ b := by have := machineEps_pos (F := F); linarith
        obtain ⟨i1, i2⟩ := ih h1 m1 (hb.trans h2) (fine_sub le_rfl hb hT) hl1
        obtain ⟨j1, j2⟩ := ih (h1.trans ha) m2 h2 (fine_sub ha le_rfl hT) hl2
        refine ⟨fun e he => ?_, fun hans ho => ?_⟩
        · rcases List.mem_append.mp he with he | he
          · obtain ⟨q1, q2, q3⟩ := i1 e he
            exact ⟨q1, q2.trans hb, q3⟩
          · obtain ⟨q1, q2, q3⟩ := j1 e he
            exact ⟨ha.trans q1, q2, q3⟩
        · rcases opposite_third ho (signal m - thr) with hh | hh
          · obtain ⟨e, he, q1, q2⟩ := i2 hans (opposite_symm hh)
            exact ⟨e, List.mem_append_left _ he, q1, q2.trans hb⟩
          · obtain ⟨e, he, q1, q2⟩ := j2 hans hh
            exact ⟨e, List.mem_append_right _ he, ha.trans q1, q2⟩
      · exact fallback_ok h1 hw h2 hT h
    · exact fromRoots_ok h1 hw h2 hT h

end Verif.Search
