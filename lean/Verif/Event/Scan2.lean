import Verif.Event.Scan

/-! From the specification hypotheses to the scan results. -/
namespace Verif.Event
open Spec Set

theorem cells_ok (root : RootFinder ℝ) (g : ℝ → ℝ) (a b step tol : ℝ) (hstep : 0 < step)
    (hab : a ≤ b) (hres : Resolved g a b step) (hacc : Accurate root g a b tol) (n : Nat)
    (cs : List (ℝ × ℝ)) (h : gridCells b step n a = some cs) : ∀ c ∈ cs, CellOK root g tol c := by
  intro c hc
  have hb := (gridCells_chain b step hstep n a hab cs h).bounds.2 c hc
  obtain ⟨k, hk⟩ := List.mem_iff_getElem?.mp hc
  have hget := gridCells_get b step hstep n a cs h k
  by_cases hkb : a + k * step < b
  · have e := hget.1 hkb
    rw [hk] at e
    simp only [Option.some.injEq] at e
    subst e
    refine ⟨hres.grid k hkb.le, ?_, fun z hz z' hz' => hres.unique k z z' hz hz', ?_⟩
    · simp only [cellHi]
      rcases le_total (a + ((k : ℝ) + 1) * step) b with hle | hle
      · rw [min_eq_left hle]
        have := hres.grid (k + 1)
        push_cast at this
        exact this hle
      · rw [min_eq_right hle]; exact hres.last
    · exact hacc _ _ hb.1 hb.2.1 hb.2.2
  · rw [hget.2 hkb] at hk; simp at hk

/-- The raw crossings of the directed scan. -/
theorem findDirected_raw (root : RootFinder ℝ) (fuel : Nat) (a b step : ℝ) (f : ℝ → ℝ) (thr : ℝ) :
    findDirectedCrossings root fuel a b step f thr
      = (gridCells b step fuel a).map (fun cs =>
          (sortAndDedup (cs.filterMap (cellDirected root (fun t => f t - thr) a b)),
            decide (0 < f a - thr))) := by
  unfold findDirectedCrossings
  simp only
  rw [findDirectedLoop_eq root (fun t => f t - thr) a b step fuel a []]
  simp [Option.map_map, Function.comp_def]

/-- Everything the directed scan delivers, in one statement. -/
theorem directed_scan (root : RootFinder ℝ) (fuel : Nat) (a b step tol : ℝ) (f : ℝ → ℝ) (thr : ℝ)
    (hab : a < b) (hstep : 0 < step) (htol : 0 ≤ tol)
    (hres : Resolved (fun t => f t - thr) a b step)
    (hacc : Accurate root (fun t => f t - thr) a b tol)
    (hsep : Separated (fun t => f t - thr) a b (dedupeEps + 2 * tol))
    (l : List (LabeledCrossing ℝ)) (s : Bool)
    (h : findDirectedCrossings root fuel a b step f thr = some (l, s)) :
    s = decide (0 < f a - thr) ∧ Alternates s l ∧
    (times l).Pairwise (fun x y => dedupeEps ≤ y - x) ∧
    (∀ x ∈ times l, a ≤ x ∧ x ≤ b) ∧
    (∀ x ∈ times l, ∃ z ∈ Icc a b, f z - thr = 0 ∧ |x - z| ≤ tol) ∧
    (∀ t ∈ Icc a b, (∀ z ∈ Icc a b, f z = thr → tol < |t - z|) →
      t ∉ times l ∧ (stateAt s (times l) t = true ↔ f t > thr)) := by
  rw [findDirected_raw] at h
  simp only [Option.map_eq_some_iff, Prod.mk.injEq] at h
  obtain ⟨cs, hcs, hl, hs⟩ := h
  have hch := gridCells_chain b step hstep fuel a hab.le cs hcs
  have hok := cells_ok root _ a b step tol hstep hab.le hres hacc fuel cs hcs
  have hg0 : (fun t => f t - thr) a ≠ 0 := by
    have := hres.grid 0
    simp only [Nat.cast_zero, zero_mul, add_zero] at this
    exact this hab.le
  obtain ⟨h1, h2, h3⟩ := scan_spec root _ a b tol a cs hch le_rfl hok hres.cont hg0
  have hsepd := scan_separated root _ a b tol _ a cs hch le_rfl hok hsep
  have hge := scan_times_ge root _ a b tol a cs hch le_rfl hok
  rw [sortAndDedup_id _ hsepd] at hl
  subst hl
  subst hs
  have hgenuine : ∀ x ∈ times (cs.filterMap (cellDirected root (fun t => f t - thr) a b)),
      ∃ z ∈ Icc a b, f z - thr = 0 ∧ |x - z| ≤ tol := by
    intro x hx
    obtain ⟨_, _, c, hc, z, hz, _, hz0, hxz⟩ := hge x hx
    have hcb := hch.bounds.2 c hc
    exact ⟨z, ⟨hcb.1.trans hz.1, hz.2.trans hcb.2.2⟩, hz0, hxz⟩
  refine ⟨rfl, h1, hsepd, fun x hx => ⟨(hge x hx).1, (hge x hx).2.1⟩, hgenuine, ?_⟩
  intro t ht hfar
  have hnt : t ∉ times (cs.filterMap (cellDirected root (fun t => f t - thr) a b)) := by
    intro hx
    obtain ⟨z, hz, hz0, hxz⟩ := hgenuine t hx
    exact absurd hxz (not_le.mpr (hfar z hz (by linarith)))
  have hgt : f t - thr ≠ 0 := by
    intro h0
    have := hfar t ht (by linarith)
    simp at this
    linarith
  refine ⟨hnt, ?_⟩
  rw [h3 t ht hgt hnt (fun z hz hz0 => hfar z hz (by linarith))]
  constructor <;> intro h <;> linarith

theorem times_strict {l : List (LabeledCrossing ℝ)}
    (h : (times l).Pairwise (fun x y => dedupeEps ≤ y - x)) : (times l).Pairwise (· < ·) :=
  h.imp (fun hxy => by have := dedupeEps_pos; linarith)

/-! ### Endpoints of periods -/

theorem directedPairs_snd (b : ℝ) :
    ∀ (m : Nat) (l : List (LabeledCrossing ℝ)), l.length ≤ m →
            ∀ p ∈ directedPairs b l, p.2 ∈ times l ∨ p.2 = b := by
  intro m
  induction m with
  | zero =>
    intro l hl p hp
    have : l = [] := List.length_eq_zero_iff.mp (by omega)
    subst this; simp [directedPairs] at hp
  | succ m ihm =>
    intro l hl p hp
    match l, hl, hp with
    | [], _, hp => simp [directedPairs] at hp
    | [u], _, hp =>
      rw [directedPairs] at hp
      split at hp
      · simp only at hp
        split at hp
        · simp at hp; subst hp; simp
        · simp at hp
      · simp [directedPairs] at hp
    | u :: v :: r, hl, hp =>
      rw [directedPairs] at hp
      split at hp
      · simp only at hp
        split at hp
        · rcases List.mem_append.mp hp with h | h
          · split at h
            · simp at h; subst h; simp [times]
            · simp at h
          · have := ihm r (by simp at hl; omega) p h
            simp only [times, List.map_cons, List.mem_cons] at this ⊢
            rcases this with h | h
            · exact Or.inl (Or.inr (Or.inr h))
            · exact Or.inr h
        · rcases List.mem_append.mp hp with h | h
          · split at h
            · simp at h; subst h; simp
            · simp at h
          · have := ihm (v :: r) (by simp at hl ⊢; omega) p h
            simp only [times, List.map_cons, List.mem_cons] at this ⊢
            rcases this with h | h
            · exact Or.inl (Or.inr h)
            · exact Or.inr h
      · have := ihm (v :: r) (by simp at hl ⊢; omega) p hp
        simp only [times, List.map_cons, List.mem_cons] at this ⊢
        rcases this with h | h
        · exact Or.inl (Or.inr h)
        · exact Or.inr h

theorem buildDirected_ends (a b : ℝ) (s : Bool) (l : List (LabeledCrossing ℝ)) :
    ∀ p ∈ buildAbovePeriodsDirected l a b s,
      (p.1 = a ∨ p.1 ∈ times l) ∧ (p.2 = b ∨ p.2 ∈ times l) := by
  intro p hp
  cases l with
  | nil =>
    cases s <;> simp [buildAbovePeriodsDirected] at hp
    subst hp; simp
  | cons x rest =>
    rw [buildAbovePeriodsDirected] at hp
    split at hp
    · rcases List.mem_append.mp hp with h | h
      · split at h
        · simp at h; subst h; simp [times]
        · simp at h
      · have h1 := directedPairs_fst b _ rest le_rfl p h
        have h2 := directedPairs_snd b _ rest le_rfl p h
        simp only [times, List.map_cons, List.mem_cons] at h1 h2 ⊢
        tauto
    · have h1 := directedPairs_fst b _ _ le_rfl p hp
      have h2 := directedPairs_snd b _ _ le_rfl p hp
      tauto

/-! ### The labelling version -/

/-- Midpoint checks succeed. -/
def MidsOK (f : ℝ → ℝ) (thr b : ℝ) : ℝ → Bool → List (LabeledCrossing ℝ) → Prop
  | lo, s, [] => s = true → f (midpoint lo b) > thr
  | lo, s, c :: cs => (s = true → f (midpoint lo c.t) > thr) ∧ MidsOK f thr b c.t (!s) cs

theorem midpoint_eq (x y : ℝ) : midpoint x y = (x + y) / 2 := by unfold midpoint; ring

theorem abovePairs_eq (f : ℝ → ℝ) (thr a b : ℝ) :
    ∀ (n : Nat) (l : List (LabeledCrossing ℝ)) (lo : ℝ), l.length ≤ n → Alternates false l →
      (times l).Pairwise (· < ·) → (∀ c ∈ times l, a ≤ c ∧ c < b) → MidsOK f thr b lo false l →
      abovePairs f thr a b l = directedPairs b l := by
  intro n
  induction n with
  | zero =>
    intro l lo hl _ _ _ _
    have : l = [] := List.length_eq_zero_iff.mp (by omega)
    subst this
    simp [directedPairs, abovePairs]
  | succ n ih =>
    intro l lo hl halt hs hb hm
    match l, hl, halt, hs, hb, hm with
    | [], _, _, _, _, _ => simp [directedPairs, abovePairs]
    | [x], _, halt, _, hb, hm =>
      have hd : x.direction = 1 := halt.1
      have hx := hb x.t (by simp [times])
      have hm2 : f (midpoint x.t b) > thr := hm.2 rfl
      rw [directedPairs, abovePairs, if_pos hd, if_pos hd]
      simp only
      rw [if_pos hx.2, if_pos ⟨by rw [midpoint_eq]; linarith [hx.1, hx.2],
        by rw [midpoint_eq]; linarith [hx.1, hx.2], hm2⟩]
    | x :: y :: rest, hl, halt, hs, hb, hm =>
      have hd : x.direction = 1 := halt.1
      have hd2 : y.direction = -1 := halt.2.1
      simp only [times, List.map_cons, List.pairwise_cons, List.mem_cons, forall_eq_or_imp] at hs hb
      have hm2 : f (midpoint x.t y.t) > thr := hm.2.1 rfl
      rw [directedPairs, abovePairs, if_pos hd, if_pos hd]
      simp only [hd2, if_true]
      rw [if_pos hs.1.1, if_pos ⟨by rw [midpoint_eq]; linarith [hb.1.1, hs.1.1],
        by rw [midpoint_eq]; linarith [hb.2.1.2, hs.1.1], hm2⟩,
        ih rest y.t (by simp at hl; omega) halt.2.2 hs.2.2 hb.2.2 hm.2.2]

theorem buildAbove_eq (f : ℝ → ℝ) (thr a b : ℝ) (s : Bool) (l : List (LabeledCrossing ℝ))
    (halt : Alternates s l) (hs : (times l).Pairwise (· < ·))
    (hb : ∀ c ∈ times l, a < c ∧ c < b) (hm : MidsOK f thr b a s l) :
    buildAbovePeriods l a b s f thr = buildAbovePeriodsDirected l a b s := by
  cases l with
  | nil => rfl
  | cons x rest =>
    cases s with
    | false =>
      rw [buildAbovePeriodsDirected, buildAbovePeriods, if_neg (by simp), if_neg (by simp)]
      exact abovePairs_eq f thr a b _ _ a le_rfl halt hs (fun c hc => ⟨(hb c hc).1.le, (hb c hc).2⟩) hm
    | true =>
      have hd : x.direction = -1 := halt.1
      simp only [times, List.map_cons, List.pairwise_cons, List.mem_cons, forall_eq_or_imp] at hs hb
      rw [buildAbovePeriodsDirected, buildAbovePeriods, if_pos ⟨rfl, hd⟩, if_pos ⟨rfl, hd⟩]
      simp only
      rw [if_pos (hm.1 rfl), if_pos hb.1.1,
        abovePairs_eq f thr a b _ rest x.t le_rfl halt.2 hs.2
          (fun c hc => ⟨(hb.2 c hc).1.le, (hb.2 c hc).2⟩) hm.2]

/-- `H`: away from the listed times (and from `lo`), the counted state is the sign. -/
def StateOK (f : ℝ → ℝ) (thr b tol lo : ℝ) (s : Bool) (l : List (LabeledCrossing ℝ)) : Prop :=
  ∀ t, lo < t → t < b → (∀ x ∈ lo :: times l, 2 * tol < |t - x|) →
    (stateAt s (times l) t = true ↔ f t > thr)

/-- Consecutive elements of `lo, times, b` are at least `d` apart. -/
def Gaps (b d : ℝ) : ℝ → List (LabeledCrossing ℝ) → Prop
  | lo, [] => d ≤ b - lo
  | lo, c :: cs => d ≤ c.t - lo ∧ Gaps b d c.t cs

theorem Gaps.le_all {b d : ℝ} (hd : 0 < d) {lo : ℝ} {l : List (LabeledCrossing ℝ)}
    (h : Gaps b d lo l) : lo + d ≤ b ∧ ∀ x ∈ times l, lo + d ≤ x ∧ x + d ≤ b := by
  induction l generalizing lo with
  | nil => simp only [Gaps] at h; simp [times]; linarith
  | cons c cs ih =>
    obtain ⟨i1, i2⟩ := ih h.2
    have := h.1
    refine ⟨by linarith, ?_⟩
    intro x hx
    simp only [times, List.map_cons, List.mem_cons] at hx
    rcases hx with rfl | hx
    · exact ⟨by linarith, i1⟩
    · have := i2 x hx
      exact ⟨by linarith, this.2⟩

theorem StateOK.tail {f : ℝ → ℝ} {thr b tol lo d : ℝ} {s : Bool} {c : LabeledCrossing ℝ}
    {cs : List (LabeledCrossing ℝ)} (h : StateOK f thr b tol lo s (c :: cs)) (htol : 0 ≤ tol)
    (hd : 0 < d) (hd2 : 2 * tol < d)
    (hg : Gaps b d lo (c :: cs)) : StateOK f thr b tol c.t (!s) cs := by
  intro t hct htb hfar
  have h1 := h t (by have := hg.1; linarith) htb (by
    intro x hx
    simp only [times, List.map_cons, List.mem_cons] at hx
    rcases hx with rfl | rfl | hx
    · have := hg.1
      rw [abs_of_nonneg (by linarith)]
      linarith
    · exact hfar _ (by simp)
    · exact hfar x (by simp only [List.mem_cons]; exact Or.inr hx))
  simp only [times, List.map_cons, stateAt_cons, if_pos hct] at h1
  exact h1

theorem midsOK_of_state (f : ℝ → ℝ) (thr b tol d : ℝ) (htol : 0 ≤ tol) (hd : 0 < d)
    (hd4 : 4 * tol < d) (l : List (LabeledCrossing ℝ)) :
    ∀ (lo : ℝ) (s : Bool), StateOK f thr b tol lo s l → Gaps b d lo l → MidsOK f thr b lo s l := by
  induction l with
  | nil =>
    intro lo s hH hg hs
    simp only [Gaps] at hg
    refine (hH _ (by rw [midpoint_eq]; linarith) (by rw [midpoint_eq]; linarith) ?_).mp ?_
    · intro x hx
      simp [times] at hx
      subst hx
      rw [midpoint_eq, abs_of_nonneg (by linarith)]
      linarith
    · simp [times, stateAt, hs]
  | cons c cs ih =>
    intro lo s hH hg
    have hg1 := hg.1
    have hall := hg.2.le_all hd
    refine ⟨fun hs => ?_, ih _ _ (hH.tail htol hd (by linarith) hg) hg.2⟩
    refine (hH _ (by rw [midpoint_eq]; linarith) (by rw [midpoint_eq]; linarith [hall.1]) ?_).mp ?_
    · intro x hx
      simp only [times, List.map_cons, List.mem_cons] at hx
      rw [midpoint_eq]
      rcases hx with rfl | rfl | hx
      · rw [abs_of_nonneg (by linarith)]; linarith
      · rw [abs_of_nonpos (by linarith)]; linarith
      · have := (hall.2 x hx).1
        rw [abs_of_nonpos (by linarith)]; linarith
    · rw [stateAt_later]
      · exact hs
      · intro x hx
        simp only [times, List.map_cons, List.mem_cons] at hx
        rw [midpoint_eq]
        rcases hx with rfl | hx
        · linarith
        · have := (hall.2 x hx).1
          linarith

theorem probeDt_pos : (0 : ℝ) < probeDt := by unfold probeDt; positivity
theorem dedupe_lt_probe : (dedupeEps : ℝ) < probeDt := by
  unfold probeDt dedupeEps; norm_num

theorem labels_of_state (f : ℝ → ℝ) (thr b tol d : ℝ) (htol : 0 ≤ tol) (hp : 2 * tol < probeDt)
    (hd : 2 * probeDt ≤ d) (l : List (LabeledCrossing ℝ)) :
    ∀ (lo : ℝ) (s : Bool), StateOK f thr b tol lo s l → Gaps b d lo l → Alternates s l →
      (times l).filterMap (labelOne f thr) = l := by
  have hpp := probeDt_pos
  induction l with
  | nil => intro lo s _ _ _; rfl
  | cons c cs ih =>
    intro lo s hH hg halt
    have hg1 := hg.1
    have hall := hg.2.le_all (by linarith)
    have htail := hH.tail htol (d := d) (by linarith) (by linarith) hg
    have hrec := ih _ _ htail hg.2 halt.2
    have hleft : s = true ↔ f (c.t - probeDt) > thr := by
      rw [← hH (c.t - probeDt) (by linarith) (by linarith [hall.1]) ?_]
      · rw [stateAt_later]
        intro x hx
        simp only [times, List.map_cons, List.mem_cons] at hx
        rcases hx with rfl | hx
        · linarith
        · have := (hall.2 x hx).1
          linarith
      · intro x hx
        simp only [times, List.map_cons, List.mem_cons] at hx
        rcases hx with rfl | rfl | hx
        · rw [abs_of_nonneg (by linarith)]; linarith
        · rw [abs_of_nonpos (by linarith)]; linarith
        · have := (hall.2 x hx).1
          rw [abs_of_nonpos (by linarith)]; linarith
    have hright : (!s) = true ↔ f (c.t + probeDt) > thr := by
      rw [← htail (c.t + probeDt) (by linarith) (by linarith [hall.1]) ?_]
      · rw [stateAt_later]
        intro x hx
        have := (hall.2 x hx).1
        linarith
      · intro x hx
        simp only [List.mem_cons] at hx
        rcases hx with rfl | hx
        · rw [abs_of_nonneg (by linarith)]; linarith
        · have := (hall.2 x hx).1
          rw [abs_of_nonpos (by linarith)]; linarith
    have hone : labelOne f thr c.t = some c := by
      unfold labelOne
      have hdir := halt.1
      cases s with
      | false =>
        have h1 : ¬ f (c.t - probeDt) > thr := fun h => by simpa using hleft.mpr h
        have h2 : f (c.t + probeDt) > thr := hright.mp rfl
        simp only [h1, h2, decide_true, decide_false, Bool.not_false, Bool.and_self, if_true]
        congr 1
        cases c; simp at hdir ⊢; exact hdir.symm
      | true =>
        have h1 : f (c.t - probeDt) > thr := hleft.mp rfl
        have h2 : ¬ f (c.t + probeDt) > thr := fun h => by simpa using hright.mpr h
        simp only [h1, h2, decide_true, decide_false, Bool.not_false, Bool.not_true, Bool.and_self,
          Bool.false_and, Bool.false_eq_true, if_true, if_false]
        congr 1
        cases c; simp at hdir ⊢; exact hdir.symm
    simp only [times, List.map_cons, List.filterMap_cons, hone]
    exact congrArg _ hrec

theorem gaps_of_pairwise (b d lo : ℝ) (l : List (LabeledCrossing ℝ))
    (h0 : lo + d ≤ b)
    (h1 : (lo :: times l).Pairwise (fun x y => d ≤ y - x)) (h2 : ∀ x ∈ times l, x + d ≤ b) :
    Gaps b d lo l := by
  induction l generalizing lo with
  | nil => simp only [Gaps]; linarith
  | cons c cs ih =>
    simp only [times, List.map_cons, List.pairwise_cons, List.mem_cons, forall_eq_or_imp] at h1 h2
    refine ⟨h1.1.1, ih c.t h2.1 ?_ h2.2⟩
    rw [List.pairwise_cons]
    exact ⟨h1.2.1, h1.2.2⟩

theorem findCrossings_raw (root : RootFinder ℝ) (fuel : Nat) (a b step : ℝ) (f : ℝ → ℝ) (thr : ℝ) :
    findCrossings root fuel a b step f thr
      = (gridCells b step fuel a).map (fun cs =>
          times (cs.filterMap (cellDirected root (fun t => f t - thr) a b))) := by
  unfold findCrossings
  simp only
  rw [findCrossingsLoop_eq root (fun t => f t - thr) a b step fuel a []]
  congr 1
  funext cs
  simp only [List.nil_append, times, List.map_filterMap]
  rfl

theorem labelSort_id (ts : List ℝ) (h : ts.Pairwise (fun x y => dedupeEps ≤ y - x)) :
    dedupBy (fun a b => decide (|a - b| < dedupeEps)) (ts.mergeSort (fun a b => decide (a ≤ b)))
      = ts := by
  have := dedupeEps_pos
  rw [List.mergeSort_of_pairwise]
  · apply dedupBy_id
    refine h.imp ?_
    intro x y hxy
    rw [decide_eq_false_iff_not, not_lt, abs_of_nonneg (by linarith)]
    exact hxy
  · refine h.imp ?_
    intro x y hxy
    simp only [decide_eq_true_eq]
    linarith

end Verif.Event
