import Verif.RootFinding.Model
import Verif.RootFinding.Spec
import Mathlib.Algebra.Order.Field.Power
import Mathlib.Tactic.Linarith
import Mathlib.Tactic.Positivity
import Mathlib.Tactic.FieldSimp
import Mathlib.Tactic.Ring
import Mathlib.Algebra.Order.Group.Unbundled.Abs

namespace Verif.RootFinding
open Spec

variable {F : Type} [Field F] [LinearOrder F] [IsStrictOrderedRing F]

theorem fEps_pos : (0 : F) < fEps := by unfold fEps; positivity

theorem defaultTol_pos : (0 : F) < defaultTol := by unfold defaultTol; positivity

theorem ne_zero_of_not_lt {x : F} (h : ¬ |x| < fEps) : x ≠ 0 := by
  rintro rfl
  exact h (by simpa using fEps_pos)

theorem sameSign_iff {sg : F → Int} (h : IsSignum sg) {x y : F} (hx : x ≠ 0) (hy : y ≠ 0) :
    sameSign sg x y = true ↔ (0 < x ∧ 0 < y) ∨ (x < 0 ∧ y < 0) := by
  rcases lt_or_gt_of_ne hx with hx | hx <;> rcases lt_or_gt_of_ne hy with hy | hy
  · simp [sameSign, h.2 x hx, h.2 y hy, hx, hy]
  · simp [sameSign, h.2 x hx, h.1 y hy, hx, hy, hx.le, hy.le, not_lt.mpr]
  · simp [sameSign, h.1 x hx, h.2 y hy, hx, hy, hx.le, hy.le, not_lt.mpr]
  · simp [sameSign, h.1 x hx, h.1 y hy, hx, hy]

theorem SignChange.symm {f : F → F} {x y : F} (h : SignChange f x y) : SignChange f y x :=
  Or.symm h

/-! ### Bisection -/

theorem mid_mem_uIcc {a b lo hi : F} (ha : a ∈ Set.uIcc lo hi) (hb : b ∈ Set.uIcc lo hi) :
    (a + b) / 2 ∈ Set.uIcc lo hi := by
  rw [Set.mem_uIcc] at *
  rcases le_total lo hi with h | h
  · left
    have h1 : lo ≤ a ∧ a ≤ hi := by rcases ha with ha | ha; exact ha; exact ⟨h.trans ha.1 |>.trans' le_rfl, ha.2.trans h⟩
    have h2 : lo ≤ b ∧ b ≤ hi := by rcases hb with ha | ha; exact ha; exact ⟨h.trans ha.1 |>.trans' le_rfl, ha.2.trans h⟩
    constructor <;> linarith
  · right
    have h1 : hi ≤ a ∧ a ≤ lo := by rcases ha with ha | ha; exact ⟨h.trans ha.1, ha.2.trans h⟩; exact ha
    have h2 : hi ≤ b ∧ b ≤ lo := by rcases hb with ha | ha; exact ⟨h.trans ha.1, ha.2.trans h⟩; exact ha
    constructor <;> linarith

theorem bisectLoop_spec {sg : F → Int} (hsg : IsSignum sg) (f : F → F) (tol lo hi : F) (n : Nat) :
    ∀ a b : F, a ∈ Set.uIcc lo hi → b ∈ Set.uIcc lo hi → f a ≠ 0 → f b ≠ 0 → SignChange f a b →
    ∃ x y, x ∈ Set.uIcc lo hi ∧ y ∈ Set.uIcc lo hi ∧ SignChange f x y ∧
      bisectLoop sg f tol n a b (f a) = (x + y) / 2 ∧
      (|f ((x + y) / 2)| < fEps ∨ |y - x| < tol ∨ |y - x| * 2 ^ n = |b - a|) := by
  induction n with
  | zero =>
    intro a b ha hb _ _ hs
    exact ⟨a, b, ha, hb, hs, rfl, Or.inr (Or.inr (by simp))⟩
  | succ n ih =>
    intro a b ha hb hfa hfb hs
    unfold bisectLoop
    dsimp only
    split
    · rename_i h
      exact ⟨a, b, ha, hb, hs, rfl, by rcases h with h | h; exact Or.inl h; exact Or.inr (Or.inl h)⟩
    · rename_i h
      push Not at h
      have hm : f ((a + b) / 2) ≠ 0 := ne_zero_of_not_lt (not_lt.mpr h.1)
      have hmem := mid_mem_uIcc ha hb
      split
      · rename_i hss
        rw [sameSign_iff hsg hfa hm] at hss
        have hs' : SignChange f ((a + b) / 2) b := by
          rcases hs with hs | hs <;> rcases hss with hss | hss
          · exact absurd hs.1 (not_le.mpr hss.1)
          · exact Or.inl ⟨hss.2.le, hs.2⟩
          · exact Or.inr ⟨hs.1, hss.2.le⟩
          · exact absurd hs.2 (not_le.mpr hss.1)
        obtain ⟨x, y, hx, hy, h1, h2, h3⟩ := ih _ _ hmem hb hm hfb hs'
        refine ⟨x, y, hx, hy, h1, h2, ?_⟩
        rcases h3 with h3 | h3 | h3
        · exact Or.inl h3
        · exact Or.inr (Or.inl h3)
        · refine Or.inr (Or.inr ?_)
          have : b - (a + b) / 2 = (b - a) / 2 := by ring
          rw [this, abs_div, abs_two] at h3
          rw [pow_succ]; linarith
      · rename_i hss
        rw [sameSign_iff hsg hfa hm] at hss
        push Not at hss
        have hs' : SignChange f a ((a + b) / 2) := by
          rcases lt_or_gt_of_ne hfa with h0 | h0
          · exact Or.inl ⟨h0.le, hss.2 h0⟩
          · exact Or.inr ⟨hss.1 h0, h0.le⟩
        obtain ⟨x, y, hx, hy, h1, h2, h3⟩ := ih _ _ ha hmem hfa hm hs'
        refine ⟨x, y, hx, hy, h1, h2, ?_⟩
        rcases h3 with h3 | h3 | h3
        · exact Or.inl h3
        · exact Or.inr (Or.inl h3)
        · refine Or.inr (Or.inr ?_)
          have : (a + b) / 2 - a = (b - a) / 2 := by ring
          rw [this, abs_div, abs_two] at h3
          rw [pow_succ]; linarith

/-! ### Brent -/

/-- Every candidate step is a multiple `θ m` of the half-bracket with `0 ≤ θ ≤ 3/2`. -/
theorem acceptStep_spec (tol m e d p q : F) :
    ∃ θ : F, 0 ≤ θ ∧ θ ≤ 3 / 2 ∧ (acceptStep tol m e d p q).2 = θ * m := by
  unfold acceptStep
  dsimp only
  obtain ⟨P, Q, hP, hPQ⟩ : ∃ P Q : F, 0 ≤ P ∧ (if p > 0 then (p, -q) else (-p, q)) = (P, Q) := by
    split
    · rename_i h; exact ⟨p, -q, le_of_lt h, rfl⟩
    · rename_i h; exact ⟨-p, q, by linarith [not_lt.mp h], rfl⟩
  rw [hPQ]
  dsimp only
  split
  · rename_i h
    have h1 : 0 < m * Q := by
      have := abs_nonneg (tol * Q)
      nlinarith [h.1]
    have hm : m ≠ 0 := by rintro rfl; simp at h1
    have hQ : Q ≠ 0 := by rintro rfl; simp at h1
    refine ⟨P / (m * Q), by positivity, ?_, by field_simp⟩
    rw [div_le_iff₀ h1]
    have := abs_nonneg (tol * Q)
    nlinarith [h.1]
  · exact ⟨1, by norm_num, by norm_num, by simp⟩

theorem chooseStep_spec (tol : F) (s : BrentState F) (m : F) :
    ∃ θ : F, 0 ≤ θ ∧ θ ≤ 3 / 2 ∧ (chooseStep tol s m).2 = θ * m := by
  unfold chooseStep
  split
  · exact ⟨1, by norm_num, by norm_num, by simp⟩
  · exact acceptStep_spec ..

theorem displacement_spec {tol m d θ : F} (hm : tol < |m|) (h0 : 0 ≤ θ) (h1 : θ ≤ 3 / 2)
    (hd : d = θ * m) :
    ∃ η : F, 0 ≤ η ∧ η ≤ 3 / 2 ∧ displacement tol m d = η * m ∧ tol ≤ |displacement tol m d| := by
  unfold displacement
  split
  · rename_i h
    exact ⟨θ, h0, h1, hd, le_of_lt h⟩
  · rename_i h
    have ht : 0 ≤ tol := (abs_nonneg d).trans (not_lt.mp h)
    have hmpos : 0 < |m| := lt_of_le_of_lt ht hm
    refine ⟨tol / |m|, by positivity, ?_, ?_, ?_⟩
    · rw [div_le_iff₀ hmpos]; linarith
    · split
      · rename_i hm0
        rw [abs_of_pos hm0]; field_simp
      · rename_i hm0
        have : m < 0 := lt_of_le_of_ne (not_lt.mp hm0) (by rintro rfl; simp at hmpos)
        have h0 := this.ne
        rw [abs_of_neg this]; field_simp
    · split
      · exact le_abs_self _
      · rw [abs_neg]; exact le_abs_self _

/-- What the loop keeps: both ends of the live bracket lie in the initial one, the stored values are
the values of `f`, and they straddle zero. -/
structure Live (f : F → F) (lo hi : F) (s : BrentState F) : Prop where
  b_mem : s.b ∈ Set.uIcc lo hi
  c_mem : s.c ∈ Set.uIcc lo hi
  fb_eq : s.fb = f s.b
  fc_eq : s.fc = f s.c
  sign : SignChange f s.b s.c
  fc_ne : s.fc ≠ 0
  best : |s.fb| ≤ |s.fc|

theorem between_mem_uIcc {b c lo hi η : F} (hb : b ∈ Set.uIcc lo hi) (hc : c ∈ Set.uIcc lo hi)
    (h0 : 0 ≤ η) (h1 : η ≤ 1) : b + η * (c - b) ∈ Set.uIcc lo hi := by
  have key : ∀ l h : F, b ∈ Set.Icc l h → c ∈ Set.Icc l h → b + η * (c - b) ∈ Set.Icc l h := by
    intro l h hb hc
    constructor
    · nlinarith [hb.1, hc.1, mul_nonneg h0 (sub_nonneg.mpr hc.1),
        mul_nonneg (sub_nonneg.mpr h1) (sub_nonneg.mpr hb.1)]
    · nlinarith [hb.2, hc.2, mul_nonneg h0 (sub_nonneg.mpr hc.2),
        mul_nonneg (sub_nonneg.mpr h1) (sub_nonneg.mpr hb.2)]
  exact key _ _ hb hc

theorem brentStep_spec {sg : F → Int} (hsg : IsSignum sg) {f : F → F} {tol lo hi : F}
    {s : BrentState F} (hL : Live f lo hi s) (hfb : ¬ |s.fb| < fEps)
    (hm : tol < |(s.c - s.b) * (1 / 2)|) :
    Live f lo hi (brentStep sg f tol ((s.c - s.b) * (1 / 2)) s) ∧
    (let s' := brentStep sg f tol ((s.c - s.b) * (1 / 2)) s
     |s'.c - s'.b| ≤ |s.c - s.b| - tol ∨ |s'.c - s'.b| ≤ 3 / 4 * |s.c - s.b|) := by
  set m := (s.c - s.b) * (1 / 2) with hmdef
  obtain ⟨θ, h0, h1, hd⟩ := chooseStep_spec tol s m
  obtain ⟨η, e0, e1, hdisp, htol⟩ := displacement_spec hm h0 h1 hd
  unfold brentStep
  dsimp only
  set δ := displacement tol m (chooseStep tol s m).2 with hδ
  have hδ' : δ = (η / 2) * (s.c - s.b) := by rw [hdisp, hmdef]; ring
  have hmem : s.b + δ ∈ Set.uIcc lo hi := by
    rw [hδ']
    exact between_mem_uIcc hL.b_mem hL.c_mem (by linarith) (by linarith)
  have hw1 : |s.b - (s.b + δ)| ≤ 3 / 4 * |s.c - s.b| := by
    have : s.b - (s.b + δ) = -((η / 2) * (s.c - s.b)) := by rw [hδ']; ring
    rw [this, abs_neg, abs_mul, abs_of_nonneg (by linarith : (0 : F) ≤ η / 2)]
    exact mul_le_mul_of_nonneg_right (by linarith) (abs_nonneg _)
  have hw2 : |s.c - (s.b + δ)| ≤ |s.c - s.b| - tol := by
    have e : s.c - (s.b + δ) = (1 - η / 2) * (s.c - s.b) := by rw [hδ']; ring
    have e2 : |δ| = η / 2 * |s.c - s.b| := by
      rw [hδ', abs_mul, abs_of_nonneg (by linarith : (0 : F) ≤ η / 2)]
    rw [e, abs_mul, abs_of_nonneg (by linarith : (0 : F) ≤ 1 - η / 2)]
    linarith
  have hfb0 : s.fb ≠ 0 := ne_zero_of_not_lt hfb
  have hsc := hL.sign
  unfold SignChange at hsc
  rw [← hL.fb_eq, ← hL.fc_eq] at hsc
  -- the state before the final swap
  set s1 : BrentState F := if sameSign sg (f (s.b + δ)) s.fc then
      { a := s.b, b := s.b + δ, c := s.b, d := s.b + δ - s.b, e := s.b + δ - s.b,
        fa := s.fb, fb := f (s.b + δ), fc := s.fb }
    else { a := s.b, b := s.b + δ, c := s.c, d := (chooseStep tol s m).2,
           e := (chooseStep tol s m).1, fa := s.fb, fb := f (s.b + δ), fc := s.fc } with hs1
  have key : s1.b ∈ Set.uIcc lo hi ∧ s1.c ∈ Set.uIcc lo hi ∧ s1.fb = f s1.b ∧ s1.fc = f s1.c ∧
      SignChange f s1.b s1.c ∧ s1.fc ≠ 0 ∧
      (|s1.c - s1.b| ≤ |s.c - s.b| - tol ∨ |s1.c - s1.b| ≤ 3 / 4 * |s.c - s.b|) := by
    rw [hs1]
    split
    · rename_i hss
      refine ⟨hmem, hL.b_mem, rfl, hL.fb_eq, ?_, hfb0, Or.inr hw1⟩
      show SignChange f (s.b + δ) s.b
      unfold SignChange
      rw [← hL.fb_eq]
      by_cases hz : f (s.b + δ) = 0
      · rcases le_total s.fb 0 with h | h
        · exact Or.inr ⟨h, hz.ge⟩
        · exact Or.inl ⟨hz.le, h⟩
      · rw [sameSign_iff hsg hz hL.fc_ne] at hss
        rcases hss with hss | hss <;> rcases hsc with hsc | hsc
        · exact Or.inr ⟨hsc.1, hss.1.le⟩
        · exact absurd hsc.1 (not_le.mpr hss.2)
        · exact absurd hsc.2 (not_le.mpr hss.2)
        · exact Or.inl ⟨hss.1.le, hsc.2⟩
    · rename_i hss
      refine ⟨hmem, hL.c_mem, rfl, hL.fc_eq, ?_, hL.fc_ne, Or.inl hw2⟩
      show SignChange f (s.b + δ) s.c
      unfold SignChange
      rw [← hL.fc_eq]
      by_cases hz : f (s.b + δ) = 0
      · rcases le_total s.fc 0 with h | h
        · exact Or.inr ⟨h, hz.ge⟩
        · exact Or.inl ⟨hz.le, h⟩
      · rw [sameSign_iff hsg hz hL.fc_ne] at hss
        push Not at hss
        rcases lt_or_gt_of_ne hz with h | h
        · exact Or.inl ⟨h.le, hss.2 h⟩
        · exact Or.inr ⟨hss.1 h, h.le⟩
  clear_value s1
  obtain ⟨k1, k2, k3, k4, k5, k6, k7⟩ := key
  split
  · rename_i hlt
    refine ⟨⟨k2, k1, k4, k3, k5.symm, ?_, hlt.le⟩, ?_⟩
    · intro h0
      dsimp only at h0
      rw [h0, abs_zero] at hlt
      exact absurd hlt (not_lt.mpr (abs_nonneg _))
    · dsimp only
      rw [abs_sub_comm]; exact k7
  · rename_i hlt
    exact ⟨⟨k1, k2, k3, k4, k5, k6, not_lt.mp hlt⟩, k7⟩

theorem brentLoop_live {sg : F → Int} (hsg : IsSignum sg) {f : F → F} {tol lo hi : F} (n : Nat) :
    ∀ s : BrentState F, Live f lo hi s → Live f lo hi (brentLoop sg f tol n s) := by
  induction n with
  | zero => intro s h; exact h
  | succ n ih =>
    intro s h
    unfold brentLoop
    dsimp only
    split
    · exact h
    · rename_i hc
      push Not at hc
      exact ih _ (brentStep_spec hsg h (not_lt.mpr hc.1) hc.2).1

/-- Enough iterations close the bracket: `n` steps are enough when the width is at most `n` times
the tolerance (and at least four steps are left for the last quarter-shrinking ones). -/
theorem brentLoop_converges {sg : F → Int} (hsg : IsSignum sg) {f : F → F} {tol lo hi : F}
    (htol : 0 < tol) (n : Nat) :
    ∀ s : BrentState F, Live f lo hi s →
      (|s.c - s.b| ≤ n * tol ∨ |s.c - s.b| ≤ 2 * tol ∨ (1 ≤ n ∧ |s.c - s.b| ≤ 8 / 3 * tol) ∨
        (2 ≤ n ∧ |s.c - s.b| ≤ 32 / 9 * tol)) →
      |(brentLoop sg f tol n s).fb| < fEps ∨
        |(brentLoop sg f tol n s).c - (brentLoop sg f tol n s).b| ≤ 2 * tol := by
  induction n with
  | zero =>
    intro s h hw
    right
    unfold brentLoop
    rcases hw with hw | hw | hw | hw
    · simp only [Nat.cast_zero, zero_mul] at hw; linarith
    · exact hw
    · exact absurd hw.1 (by omega)
    · exact absurd hw.1 (by omega)
  | succ n ih =>
    intro s h hw
    unfold brentLoop
    dsimp only
    split
    · rename_i hc
      rcases hc with hc | hc
      · exact Or.inl hc
      · right
        rw [abs_mul, abs_of_pos (by norm_num : (0 : F) < 1 / 2)] at hc
        linarith
    · rename_i hc
      push Not at hc
      obtain ⟨hl, hw'⟩ := brentStep_spec hsg h (not_lt.mpr hc.1) hc.2
      refine ih _ hl ?_
      dsimp only at hw'
      have hbig : 2 * tol < |s.c - s.b| := by
        have := hc.2
        rw [abs_mul, abs_of_pos (by norm_num : (0 : F) < 1 / 2)] at this
        linarith
      set w := |s.c - s.b|
      set w' := |(brentStep sg f tol ((s.c - s.b) * (1 / 2)) s).c -
        (brentStep sg f tol ((s.c - s.b) * (1 / 2)) s).b|
      have hcase : w' ≤ w - tol ∨ w' ≤ 3 / 4 * w := hw'
      by_cases h4 : w ≤ 8 / 3 * tol
      · right; left
        rcases hcase with h | h <;> linarith
      · push Not at h4
        by_cases h5 : w ≤ 32 / 9 * tol
        · -- one more step after this one
          by_cases hn : 1 ≤ n
          · right; right; left
            refine ⟨hn, ?_⟩
            rcases hcase with h | h <;> linarith
          · exfalso
            have hn0 : n = 0 := by omega
            subst hn0
            rcases hw with hw | hw | hw | hw
            · simp only [Nat.cast_add, Nat.cast_zero, Nat.cast_one] at hw; linarith
            · linarith
            · linarith [hw.2]
            · exact absurd hw.1 (by omega)
        · push Not at h5
          have hw1 : w ≤ ((n + 1 : ℕ) : F) * tol := by
            rcases hw with hw | hw | hw | hw
            · exact hw
            · linarith
            · linarith [hw.2]
            · linarith [hw.2]
          push_cast at hw1
          have hn3 : 3 ≤ n := by
            by_contra hlt
            have : (n : F) ≤ 2 := by exact_mod_cast (by omega : n ≤ 2)
            nlinarith
          rcases hcase with h | h
          · left; linarith
          · by_cases h6 : w ≤ 4 * tol
            · left
              have : (3 : F) ≤ n := by exact_mod_cast hn3
              nlinarith
            · left
              push Not at h6
              linarith

end Verif.RootFinding
