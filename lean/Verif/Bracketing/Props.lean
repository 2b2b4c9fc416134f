import Verif.Bracketing.Model
import Mathlib.Topology.Order.IntermediateValue
import Mathlib.Topology.Instances.Real.Lemmas
import Mathlib.Analysis.SpecialFunctions.Trigonometric.Basic
import Mathlib.Tactic.IntervalCases
import Mathlib.Tactic.Linarith

namespace Verif.Bracketing

/-! ## C233: fixed and adaptive steps -/

/-- The windows into which a step divides the time from `a` to `b`. -/
def Window (a b step : ℝ) (c : ℝ × ℝ) : Prop :=
  ∃ i : ℕ, c.1 = a + i * step ∧ c.1 < b ∧ c.2 = min (a + (i + 1) * step) b

theorem cells_spec {b s : ℝ} (hs : 0 < s) : ∀ (n : ℕ) (t : ℝ), b - t ≤ n * s →
    ∃ L : List (ℝ × ℝ), (∀ k, n ≤ k → cells b s (k + 1) t = some L) ∧ (∀ c, c ∈ L ↔ Window t b s c) ∧
      L.Pairwise (fun c d => c.2 ≤ d.1) ∧ (∀ c ∈ L, c.1 < c.2)
  | 0, t, h => by
    have hb : ¬ t < b := by push_cast at h; linarith
    refine ⟨[], fun k _ => by simp [cells, hb], fun c => ⟨(fun hc => absurd hc List.not_mem_nil), ?_⟩, .nil, by simp⟩
    rintro ⟨i, h1, h2, -⟩
    have : (0 : ℝ) ≤ i * s := by positivity
    linarith [not_lt.1 hb]
  | n + 1, t, h => by
    by_cases hb : t < b
    · have hu : b - next b s t ≤ n * s := by
        unfold next
        have : (0 : ℝ) ≤ n * s := by positivity
        push_cast at h
        split <;> linarith
      have htu : t < next b s t := by unfold next; split <;> linarith
      have hmin : next b s t = min (t + s) b := by
        unfold next
        split
        · rw [min_eq_left ‹_›]
        · rw [min_eq_right (by linarith)]
      obtain ⟨L, h1, h2, h3, h4⟩ := cells_spec hs n _ hu
      refine ⟨(t, next b s t) :: L, ?_, ?_, ?_, ?_⟩
      · intro k hk
        obtain ⟨k, rfl⟩ : ∃ j, k = j + 1 := ⟨k - 1, by omega⟩
        rw [cells, if_pos hb, h1 k (by omega)]; rfl
      · intro c
        rw [List.mem_cons, h2]
        constructor
        · rintro (rfl | ⟨i, e1, e2, e3⟩)
          · exact ⟨0, by simp, hb, by simp [hmin]⟩
          · by_cases hc : t + s ≤ b
            · have e : next b s t = t + s := if_pos hc
              rw [e] at e1 e3
              exact ⟨i + 1, by rw [e1]; push_cast; ring, e2, by rw [e3]; congr 1; push_cast; ring⟩
            · have e : next b s t = b := if_neg hc
              rw [e] at e1
              have : (0 : ℝ) ≤ i * s := by positivity
              linarith
        · rintro ⟨i, e1, e2, e3⟩
          cases i with
          | zero => left; ext <;> simp [e1, e3, hmin]
          | succ i =>
            right
            by_cases hc : t + s ≤ b
            · have e : next b s t = t + s := if_pos hc
              rw [e]
              exact ⟨i, by rw [e1]; push_cast; ring, e2, by rw [e3]; congr 1; push_cast; ring⟩
            · have : (0 : ℝ) ≤ i * s := by positivity
              push_cast at e1
              nlinarith
      · refine List.pairwise_cons.2 ⟨fun c hc => ?_, h3⟩
        obtain ⟨i, e1, -, -⟩ := (h2 c).1 hc
        have : (0 : ℝ) ≤ i * s := by positivity
        show next b s t ≤ c.1
        linarith
      · intro c hc
        rcases List.mem_cons.1 hc with rfl | hc
        · exact htu
        · exact h4 c hc
    · refine ⟨[], fun k _ => by simp [cells, hb], fun c => ⟨(fun hc => absurd hc List.not_mem_nil), ?_⟩, .nil, by simp⟩
      rintro ⟨i, h1, h2, -⟩
      have : (0 : ℝ) ≤ i * s := by positivity
      linarith [not_lt.1 hb]

theorem enough {a b s : ℝ} (hs : 0 < s) : ∃ n : ℕ, b - a ≤ n * s := by
  obtain ⟨n, hn⟩ := exists_nat_ge ((b - a) / s)
  exact ⟨n, by rwa [div_le_iff₀ hs] at hn⟩

/-- The values at the ends are on different sides of the threshold. -/
def Crosses (g : ℝ → ℝ) (c : ℝ × ℝ) : Prop := (g c.1 < 0 ∧ 0 ≤ g c.2) ∨ (0 ≤ g c.1 ∧ g c.2 < 0)

/-- **C233.** With a positive step the scan ends, and reports, in order and without overlap, exactly the windows of the step at
whose ends the function is on different sides of the threshold. -/
theorem fixed_step (g : ℝ → ℝ) {a b s : ℝ} (hs : 0 < s) : ∃ (n : ℕ) (L : List (ℝ × ℝ)),
    (∀ k, n ≤ k → fixedStep g a b s k = some L) ∧ (∀ c, c ∈ L ↔ Window a b s c ∧ Crosses g c) ∧
      L.Pairwise (fun c d => c.2 ≤ d.1) := by
  obtain ⟨n, hn⟩ := enough (a := a) (b := b) hs
  obtain ⟨L, h1, h2, h3, -⟩ := cells_spec hs n a hn
  refine ⟨n + 1, L.filter fun c => decide (Opposite (g c.1) (g c.2)), ?_, ?_, h3.filter _⟩
  · intro k hk
    obtain ⟨k, rfl⟩ : ∃ j, k = j + 1 := ⟨k - 1, by omega⟩
    rw [fixedStep, h1 k (by omega)]; rfl
  · intro c
    rw [List.mem_filter, h2, decide_eq_true_eq]; rfl

/-- **C233.** What is reported brackets a crossing: a continuous function takes the value of the threshold in it. -/
theorem crossing_inside {g : ℝ → ℝ} {c : ℝ × ℝ} (hc : c.1 ≤ c.2) (hg : ContinuousOn g (Set.Icc c.1 c.2)) (h : Crosses g c) :
    ∃ x, c.1 ≤ x ∧ x ≤ c.2 ∧ g x = 0 := by
  rcases h with ⟨h1, h2⟩ | ⟨h1, h2⟩
  · obtain ⟨x, hx, e⟩ := intermediate_value_Icc hc hg ⟨h1.le, h2⟩
    exact ⟨x, hx.1, hx.2, e⟩
  · obtain ⟨x, hx, e⟩ := intermediate_value_Icc' hc hg ⟨h2.le, h1⟩
    exact ⟨x, hx.1, hx.2, e⟩

/-- **C233 (finding).** A step that is not positive is not refused: on a window that is not empty the scan does not end. -/
theorem no_step_no_end (g : ℝ → ℝ) {a b s m : ℝ} (hs : s ≤ 0) (h : a < b) (n : ℕ) :
    fixedStep g a b s n = none ∧ adaptive g a b s m n = none := by
  have : ∀ (n : ℕ) (t : ℝ), t < b → cells b s n t = none := by
    intro n
    induction n with
    | zero => intro t _; rfl
    | succ n ih =>
      intro t ht
      have e : next b s t = t + s := if_pos (by linarith)
      rw [cells, if_pos ht, e, ih (t + s) (by linarith)]; rfl
  simp [fixedStep, adaptive, this n a h]

theorem bisect (g : ℝ → ℝ) {m : ℝ} (hm : 0 < m) : ∀ (k : ℕ) (l h : ℝ), l < h → Crosses g (l, h) → h - l ≤ 2 ^ k * (m + m) →
    ∃ r : ℝ × ℝ, (l ≤ r.1 ∧ r.1 < r.2 ∧ r.2 ≤ h) ∧ Crosses g r ∧ r.2 - r.1 ≤ m + m ∧
      ∃ N, ∀ st n, process g m (n + N) ((l, h) :: st) = (process g m n st).map (r :: ·) := by
  intro k
  induction k with
  | zero =>
    intro l h hlh hc hw
    rw [pow_zero, one_mul] at hw
    exact ⟨(l, h), ⟨le_rfl, hlh, le_rfl⟩, hc, hw, 1, fun st n => by
      rw [process, if_pos (show Opposite (g l) (g h) from hc), if_pos hw]⟩
  | succ k ih =>
    intro l h hlh hc hw
    have hc' : Opposite (g l) (g h) := hc
    by_cases hsm : h - l ≤ m + m
    · exact ⟨(l, h), ⟨le_rfl, hlh, le_rfl⟩, hc, hsm, 1, fun st n => by
        rw [process, if_pos hc', if_pos hsm]⟩
    set q := l + (h - l) * 0.5 with hq
    have hq' : q = (l + h) / 2 := by rw [hq]; ring
    have hlq : l < q := by rw [hq']; linarith
    have hqh : q < h := by rw [hq']; linarith
    rw [pow_succ] at hw
    by_cases hr : Opposite (g q) (g h)
    · obtain ⟨r, hr1, hr2, hr3, N, hN⟩ := ih q h hqh hr (by rw [hq']; linarith)
      have hno : ¬ Opposite (g l) (g q) := by
        rcases hc' with ⟨h1, h2⟩ | ⟨h1, h2⟩ <;> rcases hr with ⟨h3, h4⟩ | ⟨h3, h4⟩ <;> rintro (⟨h5, h6⟩ | ⟨h5, h6⟩) <;> linarith
      refine ⟨r, ⟨by linarith [hr1.1], hr1.2⟩, hr2, hr3, N + 2, fun st n => ?_⟩
      rw [show n + (N + 2) = (n + 1 + N) + 1 by omega, process, if_pos hc', if_neg hsm, ← hq, hN, process, if_neg hno]
    · have hl : Opposite (g l) (g q) := by
        rcases hc' with ⟨h1, h2⟩ | ⟨h1, h2⟩ <;> rcases lt_or_ge (g q) 0 with h3 | h3
        · exact absurd (Or.inl ⟨h3, h2⟩) hr
        · exact Or.inl ⟨h1, h3⟩
        · exact Or.inr ⟨h1, h3⟩
        · exact absurd (Or.inr ⟨h3, h2⟩) hr
      obtain ⟨r, hr1, hr2, hr3, N, hN⟩ := ih l q hlq hl (by rw [hq']; linarith)
      refine ⟨r, ⟨hr1.1, hr1.2.1, by linarith [hr1.2.2]⟩, hr2, hr3, N + 2, fun st n => ?_⟩
      rw [show n + (N + 2) = (n + N + 1) + 1 by omega, process, if_pos hc', if_neg hsm, ← hq, process, if_neg hr, hN]

/-- A bracket inside a window, narrow, with a crossing. -/
def Inside (g : ℝ → ℝ) (m : ℝ) (c r : ℝ × ℝ) : Prop :=
  (c.1 ≤ r.1 ∧ r.1 < r.2 ∧ r.2 ≤ c.2) ∧ Crosses g r ∧ r.2 - r.1 ≤ m + m

theorem process_all (g : ℝ → ℝ) {m : ℝ} (hm : 0 < m) : ∀ L : List (ℝ × ℝ), (∀ c ∈ L, c.1 < c.2) →
    ∃ R N, List.Forall₂ (Inside g m) (L.filter fun c => decide (Opposite (g c.1) (g c.2))) R ∧
      ∀ n, process g m (n + N) L = some R
  | [], _ => ⟨[], 1, .nil, fun n => rfl⟩
  | (l, h) :: L, hL => by
    obtain ⟨R, N, h1, h2⟩ := process_all g hm L fun c hc => hL c (List.mem_cons_of_mem _ hc)
    by_cases hc : Opposite (g l) (g h)
    · obtain ⟨k, hk⟩ := pow_unbounded_of_one_lt ((h - l) / (m + m)) (one_lt_two (α := ℝ))
      rw [div_lt_iff₀ (by linarith)] at hk
      obtain ⟨r, hr1, hr2, hr3, M, hM⟩ := bisect g hm k l h (hL _ List.mem_cons_self) hc hk.le
      refine ⟨r :: R, N + M, ?_, fun n => ?_⟩
      · rw [List.filter_cons_of_pos (by simpa using hc)]
        exact .cons ⟨hr1, hr2, hr3⟩ h1
      · rw [← Nat.add_assoc, hM, h2]; rfl
    · refine ⟨R, N + 1, ?_, fun n => ?_⟩
      · rw [List.filter_cons_of_neg (by simpa using hc)]
        exact h1
      · rw [← Nat.add_assoc, process, if_neg hc, h2]

theorem starts_inj : ∀ {R : List (ℝ × ℝ)}, R.Pairwise (fun c d => c.1 < d.1) → ∀ c ∈ R, ∀ d ∈ R, c.1 = d.1 → c = d
  | [], _, c, hc, _, _, _ => absurd hc List.not_mem_nil
  | e :: R, h, c, hc, d, hd, he => by
    rw [List.pairwise_cons] at h
    rcases List.mem_cons.1 hc with h1 | h1 <;> rcases List.mem_cons.1 hd with h2 | h2
    · rw [h1, h2]
    · have := h.1 d h2; rw [← h1] at this; linarith
    · have := h.1 c h1; rw [← h2] at this; linarith
    · exact starts_inj h.2 c h1 d h2 he

theorem sort_ordered {R : List (ℝ × ℝ)} (h : R.Pairwise fun c d => c.1 < d.1) {l : List (ℝ × ℝ)} (hp : l.Perm R) :
    l.insertionSort (fun c d => c.1 ≤ d.1) = R := by
  have hs : (l.insertionSort fun c d => c.1 ≤ d.1).Pairwise fun c d => c.1 ≤ d.1 := by
    have : Std.Total (fun c d : ℝ × ℝ => c.1 ≤ d.1) := ⟨fun c d => le_total _ _⟩
    have : IsTrans (ℝ × ℝ) (fun c d => c.1 ≤ d.1) := ⟨fun _ _ _ => le_trans⟩
    exact List.pairwise_insertionSort _ l
  have hp' : (l.insertionSort fun c d => c.1 ≤ d.1).Perm R := (List.perm_insertionSort _ l).trans hp
  refine hp'.eq_of_pairwise (le := fun c d => c.1 ≤ d.1) ?_ hs (h.imp fun h => h.le)
  intro c d hc hd h1 h2
  exact starts_inj h c (hp'.mem_iff.1 hc) d hd (le_antisymm h1 h2)

theorem inside_ordered {g : ℝ → ℝ} {m : ℝ} {L R : List (ℝ × ℝ)} (h : List.Forall₂ (Inside g m) L R)
    (hL : L.Pairwise fun c d => c.2 ≤ d.1) : R.Pairwise fun c d => c.2 ≤ d.1 := by
  induction h with
  | nil => exact .nil
  | @cons c r L R hcr hrest ih =>
    rw [List.pairwise_cons] at hL
    refine List.pairwise_cons.2 ⟨fun d hd => ?_, ih hL.2⟩
    obtain ⟨e, he, hed⟩ : ∃ e ∈ L, Inside g m e d := by
      clear ih hL
      induction hrest with
      | nil => cases hd
      | @cons c' r' L R h1 _ ih =>
        rcases List.mem_cons.1 hd with rfl | hd
        · exact ⟨c', List.mem_cons_self, h1⟩
        · obtain ⟨e, he, h⟩ := ih hd
          exact ⟨e, List.mem_cons_of_mem _ he, h⟩
    have := hL.1 e he
    linarith [hcr.1.2.2, hed.1.1]

theorem inside_lt {g : ℝ → ℝ} {m : ℝ} {L R : List (ℝ × ℝ)} (h : List.Forall₂ (Inside g m) L R) : ∀ r ∈ R, r.1 < r.2 := by
  induction h with
  | nil => intro r hr; cases hr
  | cons h1 _ ih =>
    intro r hr
    rcases List.mem_cons.1 hr with rfl | hr
    · exact h1.1.2.1
    · exact ih r hr

/-- **C233.** With a positive step and a positive least step the adaptive search ends, and reports, in order, exactly one bracket
for each window the fixed step reports: inside that window, at most twice the least step wide, with the function on different
sides of the threshold at its ends. -/
theorem adaptive_step (g : ℝ → ℝ) {a b s m : ℝ} (hs : 0 < s) (hm : 0 < m) : ∃ (n : ℕ) (L R : List (ℝ × ℝ)),
    (∀ k, n ≤ k → fixedStep g a b s k = some L ∧ adaptive g a b s m k = some R) ∧ List.Forall₂ (Inside g m) L R ∧
      R.Pairwise (fun c d => c.2 ≤ d.1) := by
  obtain ⟨n, hn⟩ := enough (a := a) (b := b) hs
  obtain ⟨C, h1, -, h3, h4⟩ := cells_spec hs n a hn
  obtain ⟨R, N, h5, h6⟩ := process_all g hm C.reverse fun c hc => h4 c (List.mem_reverse.1 hc)
  have h5' : List.Forall₂ (Inside g m) (C.filter fun c => decide (Opposite (g c.1) (g c.2))) R.reverse := by
    have := List.rel_reverse h5
    rwa [List.filter_reverse, List.reverse_reverse] at this
  have ho := inside_ordered h5' (h3.filter _)
  have hlt : R.reverse.Pairwise fun c d => c.1 < d.1 :=
    (List.Pairwise.and_mem.1 ho).imp fun ⟨hc, _, h⟩ => lt_of_lt_of_le (inside_lt h5' _ hc) h
  refine ⟨n + 1 + N, _, R.reverse, fun k hk => ?_, h5', ho⟩
  have e : cells b s k a = some C := by
    obtain ⟨j, rfl⟩ : ∃ j, k = j + 1 := ⟨k - 1, by omega⟩
    exact h1 j (by omega)
  have e' : process g m k C.reverse = some R := by
    obtain ⟨j, rfl⟩ : ∃ j, k = j + N := ⟨k - N, by omega⟩
    exact h6 j
  refine ⟨by rw [fixedStep, e]; rfl, ?_⟩
  rw [adaptive, e, Option.bind_some, e', Option.map_some, sort_ordered hlt (List.reverse_perm R).symm]

/-- **C233 (finding).** The adaptive search finds no more than the fixed step does: two crossings within one step are missed,
however small the least step and however fast the function changes. -/
theorem adaptive_no_more (g : ℝ → ℝ) {a b s m : ℝ} (hs : 0 < s) (hm : 0 < m)
    (h : ∀ c, Window a b s c → ¬ Crosses g c) : ∃ n : ℕ, ∀ k, n ≤ k → adaptive g a b s m k = some [] := by
  obtain ⟨n, L, R, h1, h2, -⟩ := adaptive_step g (a := a) (b := b) hs hm
  obtain ⟨n', L', h1', h2', -⟩ := fixed_step g (a := a) (b := b) hs
  have e : L = [] := by
    have : some L = some L' := by rw [← (h1 (max n n') (le_max_left _ _)).1, h1' _ (le_max_right _ _)]
    cases this
    exact List.eq_nil_iff_forall_not_mem.2 fun c hc => h c ((h2' c).1 hc).1 ((h2' c).1 hc).2
  subst e
  cases h2
  exact ⟨n, fun k hk => (h1 k hk).2⟩

/-- Two crossings a fifth of a step apart, none reported. -/
theorem two_missed : ∃ g : ℝ → ℝ, Continuous g ∧ g 0.4 = 0 ∧ g 0.6 = 0 ∧ g 0.5 < 0 ∧
    ∀ m : ℝ, 0 < m → ∃ n : ℕ, ∀ k, n ≤ k → adaptive g 0 1 1 m k = some [] := by
  refine ⟨fun t => (t - 0.4) * (t - 0.6), by fun_prop, by norm_num, by norm_num, by norm_num, fun m hm =>
    adaptive_no_more _ one_pos hm ?_⟩
  rintro ⟨t, u⟩ ⟨i, e1, e2, e3⟩ hc
  have hi : i = 0 := by
    by_contra hne
    have : (1 : ℝ) ≤ i := by exact_mod_cast Nat.one_le_iff_ne_zero.2 hne
    simp only at e1 e2
    linarith
  subst hi
  simp only [Nat.cast_zero, zero_mul, zero_add, one_mul, min_self] at e1 e3
  subst e1 e3
  rcases hc with ⟨h1, -⟩ | ⟨-, h1⟩ <;> norm_num at h1

/-! ## C233: searches away from a maximum -/

theorem searchStep_pos {r : ℝ} (h : 0 < r) : 0 < searchStep r ∧ r ≤ 10 * searchStep r := by
  unfold searchStep
  split <;> constructor <;> linarith

/-- What a search may answer: nothing only when the samples, from the maximum away, are all on the same side of the threshold;
else the nearest pair of neighbouring samples on different sides. -/
def Nearest (g : ℝ → ℝ) (x : ℕ → ℝ) (pair : ℝ → ℝ → ℝ × ℝ) : Option (ℝ × ℝ) → Prop
  | some c => ∃ i, c = pair (x i) (x (i + 1)) ∧ Crosses g c ∧ ∀ j < i, ¬ Crosses g (pair (x j) (x (j + 1)))
  | none => ∀ j, ¬ Crosses g (pair (x j) (x (j + 1)))

/-- The samples backwards from `e` to `a`. -/
noncomputable def backSamples (a e s : ℝ) (i : ℕ) : ℝ := max a (e - i * s)

/-- The samples forwards from `e` to `b`. -/
noncomputable def forthSamples (e b s : ℝ) (i : ℕ) : ℝ := min b (e + i * s)

theorem crosses_self (g : ℝ → ℝ) (x : ℝ) : ¬ Crosses g (x, x) := by
  rintro (⟨h1, h2⟩ | ⟨h1, h2⟩) <;> simp only at h1 h2 <;> linarith

theorem backLoop_spec (g : ℝ → ℝ) {a e s : ℝ} (hs : 0 < s) : ∀ (k i : ℕ), e - (i + 1 + k) * s ≤ a →
    (∀ j < i, ¬ Crosses g (backSamples a e s (j + 1), backSamples a e s j)) →
    ∃ r, (∀ n, k ≤ n → backLoop g a s (n + 1) (backSamples a e s (i + 1), backSamples a e s i) = some r) ∧
      Nearest g (backSamples a e s) (fun x y => (y, x)) r := by
  intro k
  have stop : ∀ i : ℕ, e - (i + 1) * s ≤ a →
      (∀ j < i, ¬ Crosses g (backSamples a e s (j + 1), backSamples a e s j)) →
      ∃ r, (∀ n, backLoop g a s (n + 1) (backSamples a e s (i + 1), backSamples a e s i) = some r) ∧
        Nearest g (backSamples a e s) (fun x y => (y, x)) r := by
    intro i h hno
    have hl : ∀ j, i + 1 ≤ j → backSamples a e s j = a := by
      intro j hj
      have : ((i + 1 : ℕ) : ℝ) ≤ j := by exact_mod_cast hj
      push_cast at this
      exact max_eq_left (by nlinarith)
    have hn : ¬ a < backSamples a e s (i + 1) := by rw [hl _ le_rfl]; exact lt_irrefl a
    by_cases hc : Opposite (g (backSamples a e s (i + 1))) (g (backSamples a e s i))
    · exact ⟨some (backSamples a e s (i + 1), backSamples a e s i), fun n => by rw [backLoop, if_neg hn, if_pos hc], i, rfl, hc, hno⟩
    · refine ⟨none, fun n => by rw [backLoop, if_neg hn, if_neg hc], fun j => ?_⟩
      rcases lt_trichotomy j i with hj | rfl | hj
      · exact hno j hj
      · exact hc
      · show ¬ Crosses g (backSamples a e s (j + 1), backSamples a e s j)
        rw [hl j (by omega), hl (j + 1) (by omega)]
        exact crosses_self g a
  induction k with
  | zero =>
    intro i h hno
    obtain ⟨r, h1, h2⟩ := stop i (by push_cast at h; linarith) hno
    exact ⟨r, fun n _ => h1 n, h2⟩
  | succ k ih =>
    intro i h hno
    by_cases hl : a < e - (i + 1) * s
    · have e1 : backSamples a e s (i + 1) = e - (i + 1) * s := by
        unfold backSamples; push_cast; exact max_eq_right hl.le
      have hn : a < backSamples a e s (i + 1) := by rw [e1]; exact hl
      by_cases hc : Opposite (g (backSamples a e s (i + 1))) (g (backSamples a e s i))
      · exact ⟨some (backSamples a e s (i + 1), backSamples a e s i), fun n _ => by rw [backLoop, if_pos hn, if_pos hc], i, rfl, hc,
          hno⟩
      · have e2 : before a s (backSamples a e s (i + 1)) = backSamples a e s (i + 1 + 1) := by
          rw [e1]
          unfold before backSamples
          push_cast
          split
          · rw [max_eq_right (by linarith)]; ring
          · rw [max_eq_left (by linarith)]
        obtain ⟨r, h1, h2⟩ := ih (i + 1) (by push_cast at h ⊢; linarith) fun j hj => by
          rcases Nat.lt_succ_iff_lt_or_eq.1 hj with hj | rfl
          · exact hno j hj
          · exact hc
        refine ⟨r, fun n hn' => ?_, h2⟩
        obtain ⟨n, rfl⟩ : ∃ j, n = j + 1 := ⟨n - 1, by omega⟩
        rw [backLoop, if_pos hn, if_neg hc, e2]
        exact h1 n (by omega)
    · obtain ⟨r, h1, h2⟩ := stop i (not_lt.1 hl) hno
      exact ⟨r, fun n _ => h1 n, h2⟩

/-- **C233.** The search backwards from a maximum at `e` ends after at most ten steps, each a tenth of the time since the start of
the window, and answers with the nearest pair of samples on different sides of the threshold. -/
theorem search_backward (g : ℝ → ℝ) {a e : ℝ} (h : 1e-9 ≤ e - a) (n : ℕ) (hn : 10 ≤ n) :
    ∃ r, backward g a e n = some r ∧ Nearest g (backSamples a e ((e - a) / 10)) (fun x y => (y, x)) r := by
  have hst : searchStep (e - a) = (e - a) / 10 := by
    unfold searchStep
    rw [if_neg (by norm_num at h ⊢; linarith)]; ring
  have hpos : 0 < (e - a) / 10 := by norm_num at h; linarith
  obtain ⟨r, h1, h2⟩ := backLoop_spec g (a := a) (e := e) hpos 9 0 (by push_cast; linarith) (fun j hj => absurd hj (Nat.not_lt_zero j))
  refine ⟨r, ?_, h2⟩
  have e0 : backSamples a e ((e - a) / 10) 0 = e := by
    unfold backSamples; push_cast; rw [zero_mul, sub_zero]; exact max_eq_right (by linarith)
  have e1 : before a ((e - a) / 10) e = backSamples a e ((e - a) / 10) (0 + 1) := by
    unfold before backSamples
    push_cast
    rw [if_pos (by linarith), max_eq_right (by linarith)]; ring
  obtain ⟨n, rfl⟩ : ∃ j, n = j + 1 := ⟨n - 1, by omega⟩
  have := h1 n (by omega)
  rw [e0, ← e1] at this
  rw [backward, hst]
  exact this

theorem mirror_loop (g : ℝ → ℝ) (b s : ℝ) : ∀ (n : ℕ) (l h : ℝ), forthLoop g b s n (l, h) =
    (backLoop (fun x => g (-x)) (-b) s n (-h, -l)).map (Option.map fun c => (-c.2, -c.1))
  | 0, _, _ => rfl
  | n + 1, l, h => by
    have hop : Opposite (g (- -h)) (g (- -l)) ↔ Opposite (g l) (g h) := by
      rw [neg_neg, neg_neg]
      constructor <;> rintro (h | h) <;> first | exact Or.inl ⟨h.2, h.1⟩ | exact Or.inr ⟨h.2, h.1⟩
    have hb : before (-b) s (-h) = -next b s h := by
      unfold before next
      by_cases hh : h + s ≤ b
      · rw [if_pos hh, if_pos (by linarith)]; ring
      · rw [if_neg hh, if_neg (by linarith)]
    rw [forthLoop, backLoop]
    by_cases h1 : h < b
    · rw [if_pos h1, if_pos (show -b < -h by linarith)]
      by_cases h2 : Opposite (g l) (g h)
      · rw [if_pos h2, if_pos (hop.2 h2)]; simp
      · rw [if_neg h2, if_neg (fun hh => h2 (hop.1 hh)), hb, mirror_loop g b s n]
    · rw [if_neg h1, if_neg (show ¬ -b < -h by linarith)]
      by_cases h2 : Opposite (g l) (g h)
      · rw [if_pos h2, if_pos (hop.2 h2)]; simp
      · rw [if_neg h2, if_neg (fun hh => h2 (hop.1 hh))]; rfl

theorem crosses_mirror (g : ℝ → ℝ) (x y : ℝ) : Crosses (fun t => g (-t)) (-y, -x) ↔ Crosses g (x, y) := by
  simp only [Crosses, neg_neg]
  constructor <;> rintro (h | h) <;> first | exact Or.inl ⟨h.2, h.1⟩ | exact Or.inr ⟨h.2, h.1⟩

/-- **C233.** The same forwards. -/
theorem search_forward (g : ℝ → ℝ) {e b : ℝ} (h : 1e-9 ≤ b - e) (n : ℕ) (hn : 10 ≤ n) :
    ∃ r, forward g e b n = some r ∧ Nearest g (forthSamples e b ((b - e) / 10)) (fun x y => (x, y)) r := by
  obtain ⟨r, h1, h2⟩ := search_backward (fun x => g (-x)) (a := -b) (e := -e) (by linarith) n hn
  have er : -e - -b = b - e := by ring
  rw [er] at h2
  have es : ∀ i, backSamples (-b) (-e) ((b - e) / 10) i = -forthSamples e b ((b - e) / 10) i := by
    intro i
    unfold backSamples forthSamples
    rw [show -e - i * ((b - e) / 10) = -(e + i * ((b - e) / 10)) by ring, max_neg_neg]
  refine ⟨r.map fun c => (-c.2, -c.1), ?_, ?_⟩
  · have hb : before (-b) (searchStep (b - e)) (-e) = -next b (searchStep (b - e)) e := by
      unfold before next
      by_cases hh : e + searchStep (b - e) ≤ b
      · rw [if_pos hh, if_pos (by linarith)]; ring
      · rw [if_neg hh, if_neg (by linarith)]
    rw [forward, mirror_loop]
    rw [backward, er, hb] at h1
    rw [h1]; rfl
  · cases r with
    | none =>
      intro j
      have := h2 j
      rw [es, es, crosses_mirror] at this
      exact this
    | some c =>
      obtain ⟨i, e1, e2, e3⟩ := h2
      rw [es, es] at e1
      subst e1
      refine ⟨i, by simp, ?_, fun j hj => ?_⟩
      · have := (crosses_mirror g _ _).1 e2
        simpa using this
      · have := e3 j hj
        rw [es, es, crosses_mirror] at this
        exact this

/-- **C233 (finding).** A pass is missed: for this function, continuous, with a maximum above the threshold in the middle of the window and
crossings an eighth of a day before and after it, both searches answer that there is none. -/
theorem pass_missed : ∃ g : ℝ → ℝ, Continuous g ∧ (∀ t, g t ≤ g 5) ∧ 0 < g 5 ∧ g (5 - 1 / 8) = 0 ∧ g (5 + 1 / 8) = 0 ∧
    ∀ n, 10 ≤ n → backward g 0 5 n = some none ∧ forward g 5 10 n = some none ∧
      extremaBased g 0 10 [⟨5, g 5, true⟩] n = some [] := by
  have tops : ∀ k : ℤ, Real.cos (4 * Real.pi * (k / 2)) = 1 := fun k => by
    rw [show 4 * Real.pi * ((k : ℝ) / 2) = k * (2 * Real.pi) by ring]; exact Real.cos_int_mul_two_pi k
  have five : Real.cos (4 * Real.pi * 5) = 1 := by have := tops 10; norm_num at this ⊢; exact this
  have zero' : Real.cos (4 * Real.pi * (5 - 1 / 8)) = 0 := by
    rw [show 4 * Real.pi * (5 - 1 / 8) = (10 : ℕ) * (2 * Real.pi) - Real.pi / 2 by push_cast; ring, Real.cos_nat_mul_two_pi_sub]
    exact Real.cos_pi_div_two
  have zero'' : Real.cos (4 * Real.pi * (5 + 1 / 8)) = 0 := by
    rw [show 4 * Real.pi * (5 + 1 / 8) = Real.pi / 2 + (10 : ℕ) * (2 * Real.pi) by push_cast; ring, Real.cos_add_nat_mul_two_pi]
    exact Real.cos_pi_div_two
  have zero0 : Real.cos (4 * Real.pi * 0) = 1 := by simp
  have ten : Real.cos (4 * Real.pi * 10) = 1 := by have := tops 20; norm_num at this ⊢; exact this
  refine ⟨fun t => Real.cos (4 * Real.pi * t), by fun_prop, fun t => by simp only [five]; exact Real.cos_le_one _,
    by simp only [five]; norm_num, zero', zero'', fun n hn => ?_⟩
  have back : backward (fun t => Real.cos (4 * Real.pi * t)) 0 5 n = some none := by
    obtain ⟨r, h1, h2⟩ := search_backward (fun t => Real.cos (4 * Real.pi * t)) (a := 0) (e := 5) (by norm_num) n hn
    have val : ∀ i, Real.cos (4 * Real.pi * backSamples 0 5 ((5 - 0) / 10) i) = 1 := by
      intro i
      unfold backSamples
      rcases le_total (0 : ℝ) (5 - i * ((5 - 0) / 10)) with hh | hh
      · rw [max_eq_right hh]
        have := tops (10 - i)
        push_cast at this
        rw [← this]; congr 1; ring
      · rw [max_eq_left hh, zero0]
    cases r with
    | none => exact h1
    | some c =>
      obtain ⟨i, rfl, e2, -⟩ := h2
      rcases e2 with ⟨e2, -⟩ | ⟨-, e2⟩ <;> (simp only [val] at e2; norm_num at e2)
  have forth : forward (fun t => Real.cos (4 * Real.pi * t)) 5 10 n = some none := by
    obtain ⟨r, h1, h2⟩ := search_forward (fun t => Real.cos (4 * Real.pi * t)) (e := 5) (b := 10) (by norm_num) n hn
    have val : ∀ i, Real.cos (4 * Real.pi * forthSamples 5 10 ((10 - 5) / 10) i) = 1 := by
      intro i
      unfold forthSamples
      rcases le_total (10 : ℝ) (5 + i * ((10 - 5) / 10)) with hh | hh
      · rw [min_eq_left hh, ten]
      · rw [min_eq_right hh]
        have := tops (10 + i)
        push_cast at this
        rw [← this]; congr 1; ring
    cases r with
    | none => exact h1
    | some c =>
      obtain ⟨i, rfl, e2, -⟩ := h2
      rcases e2 with ⟨e2, -⟩ | ⟨-, e2⟩ <;> (simp only [val] at e2; norm_num at e2)
  refine ⟨back, forth, ?_⟩
  rw [extremaBased, around, if_pos ⟨rfl, by simp only [five]; norm_num⟩]
  simp only at back forth ⊢
  rw [back, forth]
  simp [around, dedup]

/-! ## C233: around the maxima -/

theorem nearest_bounds {g : ℝ → ℝ} {x : ℕ → ℝ} {pair : ℝ → ℝ → ℝ × ℝ} {c : ℝ × ℝ} (h : Nearest g x pair (some c)) :
    Crosses g c ∧ ∃ i, c = pair (x i) (x (i + 1)) := by
  obtain ⟨i, h1, h2, -⟩ := h
  exact ⟨h2, i, h1⟩

theorem dedup_go_sub (c : ℝ × ℝ) (l : List (ℝ × ℝ)) : (dedup.go c l).Sublist l := by
  induction l generalizing c with
  | nil => exact .slnil
  | cons d l ih =>
    unfold dedup.go
    split
    · exact (ih c).cons d
    · exact (ih d).cons_cons d

theorem dedup_sub (l : List (ℝ × ℝ)) : (dedup l).Sublist l := by
  cases l with
  | nil => exact .slnil
  | cons c l => exact (dedup_go_sub c l).cons_cons c

theorem nearest_unique {g : ℝ → ℝ} {x : ℕ → ℝ} {pair : ℝ → ℝ → ℝ × ℝ} {r : Option (ℝ × ℝ)} {c : ℝ × ℝ}
    (h : Nearest g x pair r) (hc : Nearest g x pair (some c)) : r = some c := by
  obtain ⟨i, rfl, h2, h3⟩ := hc
  cases r with
  | none => exact absurd h2 (h i)
  | some d =>
    obtain ⟨j, rfl, k2, k3⟩ := h
    rcases lt_trichotomy i j with hij | rfl | hij
    · exact absurd h2 (k3 i hij)
    · rfl
    · exact absurd k2 (h3 j hij)

/-- An edge of the pass with the maximum `x`: the samples nearest to it, before or after, on different sides of the threshold. -/
def Edge (g : ℝ → ℝ) (a b : ℝ) (x : Ext) (c : ℝ × ℝ) : Prop :=
  Nearest g (backSamples a x.t ((x.t - a) / 10)) (fun x y => (y, x)) (some c) ∨
    Nearest g (forthSamples x.t b ((b - x.t) / 10)) (fun x y => (x, y)) (some c)

theorem around_spec (g : ℝ → ℝ) {a b : ℝ} (n : ℕ) (hn : 10 ≤ n) : ∀ xs : List Ext,
    (∀ x ∈ xs, a + 1e-9 ≤ x.t ∧ x.t + 1e-9 ≤ b) →
    ∃ L, around g a b n xs = some L ∧ ∀ c, c ∈ L ↔ ∃ x ∈ xs, (x.max = true ∧ 0 < x.v) ∧ Edge g a b x c
  | [], _ => ⟨[], rfl, by simp⟩
  | x :: xs, h => by
    obtain ⟨L, h1, h2⟩ := around_spec g n hn xs fun y hy => h y (List.mem_cons_of_mem _ hy)
    by_cases hx : x.max = true ∧ 0 < x.v
    · obtain ⟨ha, hb⟩ := h x List.mem_cons_self
      obtain ⟨r, r1, r2⟩ := search_backward g (a := a) (e := x.t) (by linarith) n hn
      obtain ⟨s, s1, s2⟩ := search_forward g (e := x.t) (b := b) (by linarith) n hn
      refine ⟨r.toList ++ s.toList ++ L, by rw [around, if_pos hx, r1, Option.bind_some, s1, Option.bind_some, h1]; rfl, fun c => ?_⟩
      rw [List.mem_append, List.mem_append, Option.mem_toList, Option.mem_toList, h2]
      constructor
      · rintro ((hc | hc) | ⟨y, hy, hc⟩)
        · obtain rfl : r = some c := hc
          exact ⟨x, List.mem_cons_self, hx, Or.inl r2⟩
        · obtain rfl : s = some c := hc
          exact ⟨x, List.mem_cons_self, hx, Or.inr s2⟩
        · exact ⟨y, List.mem_cons_of_mem _ hy, hc⟩
      · rintro ⟨y, hy, hm, he⟩
        rcases List.mem_cons.1 hy with rfl | hy
        · rcases he with he | he
          · exact Or.inl (Or.inl (nearest_unique r2 he))
          · exact Or.inl (Or.inr (nearest_unique s2 he))
        · exact Or.inr ⟨y, hy, hm, he⟩
    · refine ⟨L, by rw [around, if_neg hx, h1], fun c => ?_⟩
      rw [h2]
      constructor
      · rintro ⟨y, hy, hc⟩; exact ⟨y, List.mem_cons_of_mem _ hy, hc⟩
      · rintro ⟨y, hy, hm, he⟩
        rcases List.mem_cons.1 hy with rfl | hy
        · exact absurd hm hx
        · exact ⟨y, hy, hm, he⟩

theorem edge_bounds {g : ℝ → ℝ} {a b : ℝ} {x : Ext} {c : ℝ × ℝ} (hx : a + 1e-9 ≤ x.t ∧ x.t + 1e-9 ≤ b) (h : Edge g a b x c) :
    Crosses g c ∧ a ≤ c.1 ∧ c.1 ≤ c.2 ∧ c.2 ≤ b := by
  obtain ⟨ha, hb⟩ := hx
  norm_num at ha hb
  rcases h with h | h
  · obtain ⟨h3, i, rfl⟩ := nearest_bounds h
    have hi : (0 : ℝ) ≤ i * ((x.t - a) / 10) := mul_nonneg (Nat.cast_nonneg i) (by linarith)
    exact ⟨h3, le_max_left _ _, max_le_max le_rfl (by push_cast; linarith), max_le (by linarith) (by linarith)⟩
  · obtain ⟨h3, i, rfl⟩ := nearest_bounds h
    have hi : (0 : ℝ) ≤ i * ((b - x.t) / 10) := mul_nonneg (Nat.cast_nonneg i) (by linarith)
    exact ⟨h3, le_min (by linarith) (by linarith), min_le_min le_rfl (by push_cast; linarith), min_le_left _ _⟩

/-- Two brackets that agree to less than `1e-8` days at both ends. -/
def Same (c d : ℝ × ℝ) : Prop := |c.1 - d.1| < 1e-8 ∧ |c.2 - d.2| < 1e-8

theorem same_self (c : ℝ × ℝ) : Same c c := by unfold Same; simp only [sub_self, abs_zero]; norm_num

theorem go_close (c : ℝ × ℝ) (l : List (ℝ × ℝ)) : ∀ d ∈ l, Same d c ∨ ∃ e ∈ dedup.go c l, Same d e := by
  induction l generalizing c with
  | nil => intro d hd; cases hd
  | cons f l ih =>
    intro d hd
    unfold dedup.go
    by_cases hf : |f.1 - c.1| < 1e-8 ∧ |f.2 - c.2| < 1e-8
    · rw [if_pos hf]
      rcases List.mem_cons.1 hd with h1 | h1
      · rw [h1]; exact Or.inl hf
      · exact ih c d h1
    · rw [if_neg hf]
      rcases List.mem_cons.1 hd with h1 | h1
      · exact Or.inr ⟨f, List.mem_cons_self, by rw [h1]; exact same_self f⟩
      · rcases ih f d h1 with h2 | ⟨e, he, h2⟩
        · exact Or.inr ⟨f, List.mem_cons_self, h2⟩
        · exact Or.inr ⟨e, List.mem_cons_of_mem _ he, h2⟩

theorem dedup_close (l : List (ℝ × ℝ)) : ∀ d ∈ l, ∃ e ∈ dedup l, Same d e := by
  cases l with
  | nil => intro d hd; cases hd
  | cons c l =>
    intro d hd
    rcases List.mem_cons.1 hd with h1 | h1
    · exact ⟨c, List.mem_cons_self, by rw [h1]; exact same_self c⟩
    · rcases go_close c l d h1 with h2 | ⟨e, he, h2⟩
      · exact ⟨c, List.mem_cons_self, h2⟩
      · exact ⟨e, List.mem_cons_of_mem _ he, h2⟩

theorem go_chain (c : ℝ × ℝ) (l : List (ℝ × ℝ)) : (c :: dedup.go c l).IsChain fun d e => ¬ Same e d := by
  induction l generalizing c with
  | nil => exact .singleton c
  | cons f l ih =>
    unfold dedup.go
    by_cases hf : |f.1 - c.1| < 1e-8 ∧ |f.2 - c.2| < 1e-8
    · rw [if_pos hf]; exact ih c
    · rw [if_neg hf]; exact .cons_cons hf (ih f)

theorem dedup_chain (l : List (ℝ × ℝ)) : (dedup l).IsChain fun d e => ¬ Same e d := by
  cases l with
  | nil => exact .nil
  | cons c l => exact go_chain c l

/-- **C233.** The brackets around the maxima are in order of time, no two neighbours the same; each is an edge of the pass of a
maximum above the threshold, inside the window, with the function on different sides of the threshold at its ends; and every edge
of such a pass is among them, to `1e-8` days. -/
theorem extrema_based (g : ℝ → ℝ) {a b : ℝ} (xs : List Ext) (hx : ∀ x ∈ xs, a + 1e-9 ≤ x.t ∧ x.t + 1e-9 ≤ b) (n : ℕ)
    (hn : 10 ≤ n) : ∃ L, extremaBased g a b xs n = some L ∧ L.Pairwise (fun c d => c.1 ≤ d.1) ∧
      L.IsChain (fun c d => ¬ Same d c) ∧
      (∀ c ∈ L, (∃ x ∈ xs, (x.max = true ∧ 0 < x.v) ∧ Edge g a b x c) ∧ Crosses g c ∧ a ≤ c.1 ∧ c.1 ≤ c.2 ∧ c.2 ≤ b) ∧
      ∀ x ∈ xs, x.max = true → 0 < x.v → ∀ c, Edge g a b x c → ∃ d ∈ L, Same c d := by
  obtain ⟨L, h1, h2⟩ := around_spec g n hn xs hx
  refine ⟨_, by rw [extremaBased, h1]; rfl, ?_, dedup_chain _, fun c hc => ?_, fun x hm h3 h4 c hc => ?_⟩
  · have hs : (L.insertionSort fun c d => c.1 ≤ d.1).Pairwise fun c d => c.1 ≤ d.1 := by
      have : Std.Total (fun c d : ℝ × ℝ => c.1 ≤ d.1) := ⟨fun c d => le_total _ _⟩
      have : IsTrans (ℝ × ℝ) (fun c d => c.1 ≤ d.1) := ⟨fun _ _ _ => le_trans⟩
      exact List.pairwise_insertionSort _ L
    exact hs.sublist (dedup_sub _)
  · have hm := (h2 c).1 ((List.perm_insertionSort _ L).mem_iff.1 ((dedup_sub _).subset hc))
    obtain ⟨x, hx', -, he⟩ := id hm
    exact ⟨hm, edge_bounds (hx x hx') he⟩
  · exact dedup_close _ c ((List.perm_insertionSort _ L).mem_iff.2 ((h2 c).2 ⟨x, hm, ⟨h3, h4⟩, hc⟩))

/-- A case: one maximum in the middle of a window; the edges of its pass. -/
theorem one_pass : Edge (fun t => 1 - (t - 5) ^ 2) 0 10 ⟨5, 1, true⟩ (3.5, 4) ∧
    Edge (fun t => 1 - (t - 5) ^ 2) 0 10 ⟨5, 1, true⟩ (6, 6.5) := by
  have b : ∀ i : ℕ, i ≤ 3 → backSamples 0 5 ((5 - 0) / 10) i = 5 - i / 2 := fun i hi => by
    have : (i : ℝ) ≤ 3 := by exact_mod_cast hi
    unfold backSamples; rw [max_eq_right (by linarith)]; ring
  have f : ∀ i : ℕ, i ≤ 3 → forthSamples 5 10 ((10 - 5) / 10) i = 5 + i / 2 := fun i hi => by
    have : (i : ℝ) ≤ 3 := by exact_mod_cast hi
    unfold forthSamples; rw [min_eq_right (by linarith)]; ring
  refine ⟨Or.inl ⟨2, ?_, Or.inl ⟨by norm_num, by norm_num⟩, fun j hj => ?_⟩, Or.inr ⟨2, ?_, Or.inr ⟨by norm_num, by norm_num⟩, fun j hj => ?_⟩⟩
  · simp only [b 2 (by omega), b 3 (by omega)]; norm_num
  · simp only [b j (by omega), b (j + 1) (by omega), Crosses]
    interval_cases j <;> norm_num
  · simp only [f 2 (by omega), f 3 (by omega)]; norm_num
  · simp only [f j (by omega), f (j + 1) (by omega), Crosses]
    interval_cases j <;> norm_num

end Verif.Bracketing
