import Mathlib.Tactic.Linarith
import Mathlib.Tactic.Ring
import Mathlib.Tactic.FieldSimp
import Mathlib.Tactic.Positivity
import Mathlib.Algebra.Order.Group.Unbundled.Abs
import Mathlib.Algebra.Order.AbsoluteValue.Basic
import Verif.Search.Model
import Verif.Search.Spec

namespace Verif.Search
open Verif.Search.Spec

variable {F : Type} [Field F] [LinearOrder F]

theorem opposite_iff (x y : F) : opposite x y = true ↔ Opposite x y := by
  unfold opposite Opposite
  by_cases hx : x < 0 <;> by_cases hy : y < 0 <;> simp [hx, hy] <;>
    (try exact ⟨fun h => absurd h (not_le.mpr hx), fun _ => hy⟩) <;> simp_all

theorem opposite_symm {x y : F} (h : Opposite x y) : Opposite y x := by
  rcases h with h | h
  · exact Or.inr ⟨h.2, h.1⟩
  · exact Or.inl ⟨h.2, h.1⟩

theorem opposite_third {x y : F} (h : Opposite x y) (z : F) : Opposite z x ∨ Opposite z y := by
  rcases lt_or_ge z 0 with hz | hz <;> rcases h with h | h
  · exact Or.inr (Or.inl ⟨hz, h.2⟩)
  · exact Or.inl (Or.inl ⟨hz, h.1⟩)
  · exact Or.inl (Or.inr ⟨hz, h.1⟩)
  · exact Or.inr (Or.inr ⟨hz, h.2⟩)

theorem not_opposite_iff (x y : F) : ¬ Opposite x y ↔ (x < 0 ↔ y < 0) := by
  unfold Opposite
  by_cases hx : x < 0 <;> by_cases hy : y < 0 <;> simp [hx, hy] <;> simp_all

variable [IsStrictOrderedRing F]

theorem machineEps_pos : (0 : F) < machineEps := by unfold machineEps; positivity

theorem tol1_pos {timeTol : F} (h : 0 < timeTol) (b : F) : 0 < tol1 timeTol b := by
  unfold tol1
  have := mul_nonneg (mul_nonneg (by norm_num : (0 : F) ≤ 2) machineEps_pos.le) (abs_nonneg b)
  linarith

/-- The chosen step is a multiple `θ xm` with `0 ≤ θ ≤ 3/2`. -/
theorem chooseStep_spec (t1 xm : F) (s : BrentVars F) :
    ∃ θ : F, 0 ≤ θ ∧ θ ≤ 3 / 2 ∧ (chooseStep t1 xm s).1 = θ * xm := by
  have one : ∃ θ : F, 0 ≤ θ ∧ θ ≤ 3 / 2 ∧ xm = θ * xm := ⟨1, by norm_num, by norm_num, by simp⟩
  unfold chooseStep
  split
  · dsimp only
    generalize (if |s.a - s.c| ≤ machineEps then _ else _ : F × F) = pq
    generalize (if 0 < pq.1 then -pq.2 else pq.2) = q
    split
    · rename_i h
      rw [lt_min_iff] at h
      have hp := abs_nonneg pq.1
      have htq := abs_nonneg (t1 * q)
      have h1 : 0 < xm * q := by nlinarith [h.1]
      have hm : xm ≠ 0 := by rintro rfl; simp at h1
      have hQ : q ≠ 0 := by rintro rfl; simp at h1
      refine ⟨|pq.1| / (xm * q), by positivity, ?_, by field_simp⟩
      rw [div_le_iff₀ h1]
      nlinarith [h.1]
    · exact one
  · exact one

theorem displace_spec {t1 xm d θ : F} (ht : 0 < t1) (hm : t1 < |xm|) (h0 : 0 ≤ θ) (h1 : θ ≤ 3 / 2)
    (hd : d = θ * xm) : ∃ η : F, 0 ≤ η ∧ η ≤ 3 / 2 ∧ displace t1 xm d = η * xm := by
  have hmpos : 0 < |xm| := ht.trans hm
  unfold displace
  split
  · exact ⟨θ, h0, h1, hd⟩
  · refine ⟨t1 / |xm|, by positivity, ?_, ?_⟩
    · rw [div_le_iff₀ hmpos]; linarith
    · split
      · rename_i h
        have hne := h.ne
        rw [abs_of_neg h]; field_simp
      · rename_i h
        have hx : 0 < xm := lt_of_le_of_ne (not_lt.mp h) (by rintro rfl; simp at hmpos)
        have hne := hx.ne'
        rw [abs_of_pos hx]; field_simp

/-- The loop invariant of `brent_f64`. -/
structure Inv (f : F → F) (lo hi : F) (s : BrentVars F) : Prop where
  a_mem : lo ≤ s.a ∧ s.a ≤ hi
  b_mem : lo ≤ s.b ∧ s.b ≤ hi
  c_mem : lo ≤ s.c ∧ s.c ≤ hi
  fa_eq : s.fa = f s.a
  fb_eq : s.fb = f s.b
  fc_eq : s.fc = f s.c
  sign : Opposite s.fb s.fc ∨ (Opposite s.fb s.fa ∧ |s.a - s.b| ≤ 3 * |s.c - s.b|)

/-- After `rebracket` and `swapBest` the ends `b` and `c` lie on different sides. -/
theorem prep_spec {f : F → F} {lo hi : F} {s : BrentVars F} (h : Inv f lo hi s) :
    Inv f lo hi (swapBest (rebracket s)) ∧
      Opposite (swapBest (rebracket s)).fb (swapBest (rebracket s)).fc := by
  have h1 : Inv f lo hi (rebracket s) ∧ Opposite (rebracket s).fb (rebracket s).fc := by
    unfold rebracket
    by_cases ho : opposite s.fb s.fc = true
    · rw [if_pos ho]
      exact ⟨h, (opposite_iff _ _).mp ho⟩
    · rw [if_neg ho]
      have ho' : ¬ Opposite s.fb s.fc := fun hh => ho ((opposite_iff _ _).mpr hh)
      have := h.sign.resolve_left ho'
      exact ⟨⟨h.a_mem, h.b_mem, h.a_mem, h.fa_eq, h.fb_eq, h.fa_eq, Or.inl this.1⟩, this.1⟩
  generalize rebracket s = s1 at h1 ⊢
  obtain ⟨h1, ho⟩ := h1
  unfold swapBest
  split
  · exact ⟨⟨h1.b_mem, h1.c_mem, h1.b_mem, h1.fb_eq, h1.fc_eq, h1.fb_eq, Or.inl (opposite_symm ho)⟩, (opposite_symm ho)⟩
  · exact ⟨h1, ho⟩

theorem advance_spec {f : F → F} {lo hi timeTol : F} (htol : 0 < timeTol) {s : BrentVars F}
    (h : Inv f lo hi s) (ho : Opposite s.fb s.fc)
    (hm : tol1 timeTol s.b < |1 / 2 * (s.c - s.b)|) : Inv f lo hi (advance f timeTol s) := by
  obtain ⟨θ, h0, h1, hd⟩ := chooseStep_spec (tol1 timeTol s.b) (1 / 2 * (s.c - s.b)) s
  obtain ⟨η, e0, e1, hdisp⟩ := displace_spec (tol1_pos htol s.b) hm h0 h1 hd
  unfold advance
  dsimp only
  rw [hdisp]
  set w := s.c - s.b with hw
  have hb : s.b + η * (1 / 2 * w) = (1 - η / 2) * s.b + η / 2 * s.c := by rw [hw]; ring
  have k0 : 0 ≤ η / 2 := by linarith
  have k1 : 0 ≤ 1 - η / 2 := by linarith
  have hsum : (1 - η / 2) + η / 2 = 1 := by ring
  refine ⟨h.b_mem, ⟨?_, ?_⟩, h.c_mem, h.fb_eq, rfl, h.fc_eq, ?_⟩
  · show lo ≤ s.b + η * (1 / 2 * w)
    rw [hb]
    nlinarith [h.b_mem.1, h.c_mem.1, mul_nonneg k0 (sub_nonneg.mpr h.c_mem.1),
      mul_nonneg k1 (sub_nonneg.mpr h.b_mem.1)]
  · show s.b + η * (1 / 2 * w) ≤ hi
    rw [hb]
    nlinarith [h.b_mem.2, h.c_mem.2, mul_nonneg k0 (sub_nonneg.mpr h.c_mem.2),
      mul_nonneg k1 (sub_nonneg.mpr h.b_mem.2)]
  · dsimp only
    rcases opposite_third ho (f (s.b + η * (1 / 2 * w))) with hh | hh
    · refine Or.inr ⟨hh, ?_⟩
      have e1' : s.b - (s.b + η * (1 / 2 * w)) = -(η / 2) * w := by ring
      have e2' : s.c - (s.b + η * (1 / 2 * w)) = (1 - η / 2) * w := by rw [hw]; ring
      rw [e1', e2', abs_mul, abs_mul, abs_neg, abs_of_nonneg k0, abs_of_nonneg k1, ← mul_assoc]
      exact mul_le_mul_of_nonneg_right (by linarith) (abs_nonneg _)
    · exact Or.inl hh

theorem brentConverged_spec {f : F → F} {lo hi timeTol resTol : F} {s : BrentVars F}
    (h : Inv f lo hi s) (hc : brentConverged s.fb |s.c - s.b| timeTol resTol = true) :
    Located f lo hi resTol timeTol s.b := by
  unfold brentConverged at hc
  split at hc
  · rename_i hr
    left; rw [← h.fb_eq]; exact hr
  · rw [decide_eq_true_iff] at hc
    right
    rcases h.sign with hs | ⟨hs, hw⟩
    · refine ⟨s.c, h.c_mem.1, h.c_mem.2, ?_, by rw [← h.fb_eq, ← h.fc_eq]; exact hs⟩
      have := abs_nonneg (s.c - s.b)
      linarith
    · exact ⟨s.a, h.a_mem.1, h.a_mem.2, by linarith, by rw [← h.fb_eq, ← h.fa_eq]; exact hs⟩

theorem brentLoop_sound {f : F → F} {lo hi timeTol resTol : F} (htol : 0 < timeTol)
    (hT : ∀ x, lo ≤ x → x ≤ hi → 4 * machineEps * |x| ≤ 3 * timeTol) (n : Nat) :
    ∀ s : BrentVars F, Inv f lo hi s → ∀ r, brentLoop f timeTol resTol n s = some r →
      lo ≤ r ∧ r ≤ hi ∧ Located f lo hi resTol timeTol r := by
  induction n with
  | zero =>
    intro s h r hr
    unfold brentLoop at hr
    split at hr
    · rename_i hc
      cases hr
      exact ⟨h.b_mem.1, h.b_mem.2, brentConverged_spec h hc⟩
    · cases hr
  | succ n ih =>
    intro s0 h0 r hr
    unfold brentLoop at hr
    dsimp only at hr
    obtain ⟨h, ho⟩ := prep_spec h0
    generalize swapBest (rebracket s0) = s at h ho hr
    by_cases hx : |1 / 2 * (s.c - s.b)| ≤ tol1 timeTol s.b
    · rw [if_pos hx] at hr
      have hconv : brentConverged s.fb |s.c - s.b| timeTol resTol = true := by
        unfold brentConverged
        split
        · rfl
        · rw [decide_eq_true_iff]
          have := hT s.b h.b_mem.1 h.b_mem.2
          rw [abs_mul, abs_of_pos (by norm_num : (0 : F) < 1 / 2)] at hx
          unfold tol1 at hx
          linarith
      rw [if_pos hconv] at hr
      cases hr
      exact ⟨h.b_mem.1, h.b_mem.2, brentConverged_spec h hconv⟩
    · rw [if_neg hx] at hr
      by_cases hf : |s.fb| ≤ resTol
      · rw [if_pos hf] at hr
        cases hr
        exact ⟨h.b_mem.1, h.b_mem.2, Or.inl (by rw [← h.fb_eq]; exact hf)⟩
      · rw [if_neg hf] at hr
        exact ih _ (advance_spec htol h ho (not_le.mp hx)) r hr

/-- Any root answered by `brent_f64` lies in the bracket and is a root to the tolerances. -/
theorem brentF64_sound {f : F → F} {lo hi timeTol resTol : F} (htol : 0 < timeTol)
    (hT : ∀ x, lo ≤ x → x ≤ hi → 4 * machineEps * |x| ≤ 3 * timeTol) {r : F}
    (h : brentF64 lo hi (f lo) (f hi) f timeTol resTol = some r) :
    lo ≤ r ∧ r ≤ hi ∧ Located f lo hi resTol timeTol r := by
  unfold brentF64 at h
  split at h
  · cases h
  rename_i hle
  have hle := not_lt.mp hle
  split at h
  · rename_i hf
    cases h
    exact ⟨le_rfl, hle, Or.inl hf⟩
  split at h
  · rename_i hf
    cases h
    exact ⟨hle, le_rfl, Or.inl hf⟩
  split at h
  · cases h
  rename_i ho
  have ho : Opposite (f lo) (f hi) := (opposite_iff _ _).mp (by simpa using ho)
  exact brentLoop_sound htol hT 100 _
    ⟨⟨le_rfl, hle⟩, ⟨hle, le_rfl⟩, ⟨le_rfl, hle⟩, rfl, rfl, rfl, Or.inl (opposite_symm ho)⟩ r h

/-- Without a sign change there is no root unless an end is already on the threshold. -/
theorem brentF64_same_side {f : F → F} {lo hi timeTol resTol : F} (hs : ¬ Opposite (f lo) (f hi))
    (h1 : resTol < |f lo|) (h2 : resTol < |f hi|) :
    brentF64 lo hi (f lo) (f hi) f timeTol resTol = none := by
  unfold brentF64
  have ho : opposite (f lo) (f hi) = false := by
    rw [Bool.eq_false_iff]; intro h; exact hs ((opposite_iff _ _).mp h)
  rw [if_neg (not_le.mpr h1), if_neg (not_le.mpr h2), if_pos ho]
  split <;> rfl

end Verif.Search
