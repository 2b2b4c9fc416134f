import Verif.Search.Segments

/-! A family of signals for which the refinement always answers: affine signals of slope one. -/
namespace Verif.Search
open Verif.Search.Spec

variable {F : Type} [Field F] [LinearOrder F] [IsStrictOrderedRing F]

theorem tol1_ge {timeTol : F} (b : F) : timeTol * (1 / 2) ≤ tol1 timeTol b := by
  unfold tol1
  have := mul_nonneg (mul_nonneg (by norm_num : (0 : F) ≤ 2) machineEps_pos.le) (abs_nonneg b)
  linarith

/-- A state whose best value is already within the tolerance ends the loop. -/
theorem loop_done {f : F → F} {timeTol resTol : F} (n : Nat) {s : BrentVars F}
    (h : |(swapBest (rebracket s)).fb| ≤ resTol) : (brentLoop f timeTol resTol (n + 1) s).isSome := by
  unfold brentLoop
  dsimp only
  generalize swapBest (rebracket s) = s at h
  split
  · rw [if_pos (by unfold brentConverged; rw [if_pos h])]; rfl
  · first | rfl | (rw [if_pos h]; rfl)

/-- A state whose bracket is already closed to the time tolerance ends the loop. -/
theorem loop_narrow {f : F → F} {timeTol resTol : F} (htol : 0 < timeTol) (n : Nat) {s : BrentVars F}
    (h : |(swapBest (rebracket s)).c - (swapBest (rebracket s)).b| ≤ timeTol) :
    (brentLoop f timeTol resTol (n + 1) s).isSome := by
  unfold brentLoop
  dsimp only
  generalize swapBest (rebracket s) = s at h
  have : |1 / 2 * (s.c - s.b)| ≤ tol1 timeTol s.b := by
    rw [abs_mul, abs_of_pos (by norm_num : (0 : F) < 1 / 2)]
    have := tol1_ge (timeTol := timeTol) s.b
    linarith
  rw [if_pos this, if_pos]
  · rfl
  · unfold brentConverged
    split
    · rfl
    · rw [decide_eq_true_iff]; linarith

/-- The first step of Brent's method on an affine function goes to its zero. -/
theorem ramp_step {z t1 : F} {b c d : F} (hopp : (b < z ∧ z < c) ∨ (c < z ∧ z < b))
    (hbest : |b - z| ≤ |c - z|) (ht : 0 < t1) (hm : t1 < |1 / 2 * (c - b)|) :
    (chooseStep t1 (1 / 2 * (c - b))
      { a := c, b := b, c := c, fa := c - z, fb := b - z, fc := c - z, d := d, e := d }).1 = z - b ∨
    |d| ≠ |c - b| := by
  by_cases hd : |d| = |c - b|
  swap
  · exact Or.inr hd
  left
  have hcb : c - b ≠ 0 := by
    intro h; rw [h] at hm; simp at hm; linarith
  unfold chooseStep
  dsimp only
  have hwide : t1 ≤ |d| := by
    rw [hd]
    rw [abs_mul, abs_of_pos (by norm_num : (0 : F) < 1 / 2)] at hm
    have := abs_nonneg (c - b)
    linarith
  rcases lt_or_eq_of_le hbest with hlt | heq
  · rw [if_pos ⟨hwide, hlt⟩]
    rw [sub_self, abs_zero, if_pos machineEps_pos.le]
    dsimp only
    have hfa : c - z ≠ 0 := by
      intro h; rw [h, abs_zero] at hlt; exact absurd hlt (not_lt.mpr (abs_nonneg _))
    -- the ratio of the two values
    set s := (b - z) / (c - z) with hs
    have hsneg : s < 0 := by
      rw [hs]
      rcases hopp with h | h
      · exact div_neg_of_neg_of_pos (by linarith) (by linarith)
      · exact div_neg_of_pos_of_neg (by linarith) (by linarith)
    have hsabs : -1 < s := by
      have h1 : |s| < 1 := by
        rw [hs, abs_div]
        rw [div_lt_one (abs_pos.mpr hfa)]
        exact hlt
      exact (abs_lt.mp h1).1
    set xm := 1 / 2 * (c - b) with hxm
    have hxne : xm ≠ 0 := by
      intro h; rw [h] at hm; simp at hm; linarith
    have hq : 0 < 1 - s := by linarith
    have hd' : |d| = 2 * |xm| := by
      rw [hd, hxm, abs_mul, abs_of_pos (by norm_num : (0 : F) < 1 / 2)]; ring
    have hval : ∀ q : F, (q = 1 - s ∧ 0 < xm) ∨ (q = -(1 - s) ∧ xm < 0) →
        (if 2 * |2 * xm * s| < min (3 * xm * q - |t1 * q|) |d * q| then (|2 * xm * s| / q, d)
          else (xm, xm) : F × F).1 = z - b := by
      intro q hqq
      have habs : |2 * xm * s| = 2 * |xm| * -s := by
        rw [abs_mul, abs_mul, abs_of_neg hsneg, abs_of_pos (by norm_num : (0 : F) < 2)]
      have hqa : |q| = 1 - s := by
        rcases hqq with h | h
        · rw [h.1, abs_of_pos hq]
        · rw [h.1, abs_neg, abs_of_pos hq]
      have hxq : xm * q = |xm| * (1 - s) := by
        rcases hqq with h | h
        · rw [h.1, abs_of_pos h.2]
        · rw [h.1, abs_of_neg h.2]; ring
      have hxp : 0 < |xm| := abs_pos.mpr hxne
      rw [if_pos]
      · dsimp only
        rw [habs]
        have hz : -(c - b) * s / (1 - s) = z - b := by
          have : (1 - s) = (c - b) / (c - z) := by rw [hs]; field_simp; ring
          rw [this, hs]
          field_simp
          ring
        rw [← hz, hxm]
        rcases hqq with h | h
        · rw [h.1, ← hxm, abs_of_pos h.2, hxm]
          ring
        · rw [h.1, ← hxm, abs_of_neg h.2, hxm]
          have := hq.ne'
          field_simp
      · rw [habs, lt_min_iff]
        constructor
        · have e1 : 3 * xm * q = 3 * (|xm| * (1 - s)) := by rw [← hxq]; ring
          rw [e1, abs_mul t1 q, hqa, abs_of_pos ht]
          have : t1 * (1 - s) < |xm| * (1 - s) := mul_lt_mul_of_pos_right hm hq
          nlinarith [mul_pos hxp (by linarith : (0 : F) < 1 + s)]
        · rw [abs_mul d q, hqa, hd']
          nlinarith [mul_pos hxp (by linarith : (0 : F) < 1 + s)]
    rcases lt_or_gt_of_ne hxne with hx | hx
    · have hp : 0 < 2 * xm * s := by nlinarith [mul_pos_of_neg_of_neg hx hsneg]
      rw [if_pos hp]
      exact hval _ (Or.inr ⟨rfl, hx⟩)
    · have hp : ¬ 0 < 2 * xm * s := by
        have := mul_neg_of_pos_of_neg hx hsneg
        intro h; linarith
      rw [if_neg hp]
      exact hval _ (Or.inl ⟨rfl, hx⟩)
  · rw [if_neg (by intro h; rw [heq] at h; exact lt_irrefl _ h.2)]
    dsimp only
    rcases hopp with h | h
    · rw [abs_of_neg (by linarith), abs_of_pos (by linarith)] at heq
      linarith
    · rw [abs_of_pos (by linarith), abs_of_neg (by linarith)] at heq
      linarith

/-- One advanced state from `b`, `c` around the zero is at the zero, or has closed the bracket. -/
theorem ramp_second {z timeTol resTol : F} (htol : 0 < timeTol) (hres : 0 ≤ resTol) {b c d : F}
    (hopp : (b < z ∧ z < c) ∨ (c < z ∧ z < b)) (hbest : |b - z| ≤ |c - z|)
    (hd : |d| = |c - b|) (hb : 4 * machineEps * |b| ≤ timeTol)
    (hm : tol1 timeTol b < |1 / 2 * (c - b)|) (n : Nat) :
    (brentLoop (fun t => t - z) timeTol resTol (n + 1) (advance (fun t => t - z) timeTol
      { a := c, b := b, c := c, fa := c - z, fb := b - z, fc := c - z, d := d, e := d })).isSome := by
  have ht := tol1_pos htol b
  have hstep := (ramp_step (d := d) hopp hbest ht hm).resolve_right (not_not.mpr hd)
  have ht1 : tol1 timeTol b ≤ timeTol := by unfold tol1; linarith
  unfold advance
  dsimp only
  rw [hstep]
  generalize (chooseStep (tol1 timeTol b) (1 / 2 * (c - b))
    { a := c, b := b, c := c, fa := c - z, fb := b - z, fc := c - z, d := d, e := d }).2 = e'
  unfold displace
  split
  · -- the zero itself
    apply loop_done
    have e : b + (z - b) - z = 0 := by ring
    unfold rebracket
    dsimp only
    split <;> unfold swapBest <;> dsimp only <;> rw [e, abs_zero, if_neg (not_lt.mpr (abs_nonneg _))] <;>
      simpa using hres
  · rename_i hsmall
    have hsmall := not_lt.mp hsmall
    -- the new point is beyond the zero, seen from `b`
    obtain ⟨b', hb', hclose, hside⟩ : ∃ b', b + (if 1 / 2 * (c - b) < 0 then -tol1 timeTol b
        else tol1 timeTol b) = b' ∧ |b - b'| ≤ timeTol ∧
        ((b < z ∧ z ≤ b' ∧ z < c) ∨ (b' ≤ z ∧ z < b ∧ c < z)) := by
      rcases hopp with h | h
      · rw [if_neg (by rw [not_lt]; nlinarith)]
        rw [abs_of_pos (by linarith)] at hsmall
        refine ⟨_, rfl, ?_, Or.inl ⟨h.1, by linarith, h.2⟩⟩
        rw [show b - (b + tol1 timeTol b) = -tol1 timeTol b by ring, abs_neg, abs_of_pos ht]
        exact ht1
      · rw [if_pos (by nlinarith)]
        rw [abs_of_neg (by linarith)] at hsmall
        refine ⟨_, rfl, ?_, Or.inr ⟨by linarith, h.2, h.1⟩⟩
        rw [show b - (b + -tol1 timeTol b) = tol1 timeTol b by ring, abs_of_pos ht]
        exact ht1
    rw [hb']
    by_cases hz : b' - z = 0
    · apply loop_done
      unfold rebracket
      dsimp only
      split <;> unfold swapBest <;> dsimp only <;> rw [hz, abs_zero, if_neg (not_lt.mpr (abs_nonneg _))] <;>
        simpa using hres
    · have hno : opposite (b' - z) (c - z) = false := by
        rw [Bool.eq_false_iff]
        intro h
        rw [opposite_iff] at h
        rcases hside with hs | hs <;> rcases h with h | h
        · linarith [h.1]
        · linarith [h.2]
        · linarith [h.2]
        · exact hz (le_antisymm (by linarith) h.1)
      apply loop_narrow htol
      unfold rebracket
      dsimp only
      rw [if_neg (by rw [hno]; simp)]
      unfold swapBest
      dsimp only
      split
      · dsimp only; rw [abs_sub_comm]; exact hclose
      · exact hclose

/-- For a signal of slope one the refinement always answers. -/
theorem ramp_answers {z lo hi timeTol resTol : F} (htol : 0 < timeTol) (hres : 0 ≤ resTol)
    (hT : ∀ x, lo ≤ x → x ≤ hi → 4 * machineEps * |x| ≤ timeTol) :
    Answers (fun t => t - z) lo hi timeTol resTol := by
  intro x y hx hxy hy ho
  have ho : Opposite (x - z) (y - z) := ho
  show (brentF64 x y (x - z) (y - z) (fun t => t - z) timeTol resTol).isSome
  unfold brentF64
  rw [if_neg (not_lt.mpr hxy.le)]
  split
  · rfl
  rename_i hfx
  split
  · rfl
  rename_i hfy
  have hxz : x - z ≠ 0 := by intro h; rw [h, abs_zero] at hfx; exact hfx hres
  have hyz : y - z ≠ 0 := by intro h; rw [h, abs_zero] at hfy; exact hfy hres
  rw [if_neg (by rw [(opposite_iff _ _).mpr ho]; simp)]
  have hsides : x < z ∧ z < y := by
    rcases ho with h | h
    · exact ⟨by linarith [h.1], lt_of_le_of_ne (by linarith [h.2]) (by
        intro h'; exact hyz (by rw [h']; ring))⟩
    · exact absurd h.2 (by linarith [h.1])
  have core : ∀ b c : F, ((b < z ∧ z < c) ∨ (c < z ∧ z < b)) → |b - z| ≤ |c - z| →
      |y - x| = |c - b| → 4 * machineEps * |b| ≤ timeTol →
      (let s : BrentVars F := ⟨c, b, c, c - z, b - z, c - z, y - x, y - x⟩
       if |1 / 2 * (s.c - s.b)| ≤ tol1 timeTol s.b then
        if brentConverged s.fb |s.c - s.b| timeTol resTol then some s.b
        else brentLoop (fun t => t - z) timeTol resTol 99 (advance (fun t => t - z) timeTol s)
       else if |s.fb| ≤ resTol then some s.b
       else brentLoop (fun t => t - z) timeTol resTol 99 (advance (fun t => t - z) timeTol s)).isSome := by
    intro b c h1 h2 h3 h4
    dsimp only
    split
    · rename_i hn
      rw [if_pos]
      · rfl
      · unfold brentConverged
        split
        · rfl
        · rw [decide_eq_true_iff]
          rw [abs_mul, abs_of_pos (by norm_num : (0 : F) < 1 / 2)] at hn
          have : tol1 timeTol b ≤ timeTol := by unfold tol1; linarith
          linarith
    · rename_i hn
      split
      · rfl
      · exact ramp_second htol hres h1 h2 h3 h4 (not_le.mp hn) 98
  rw [brentLoop]
  have hr : opposite (y - z) (x - z) = true := (opposite_iff _ _).mpr (opposite_symm ho)
  unfold rebracket
  dsimp only
  rw [if_pos hr]
  unfold swapBest
  by_cases hlt : |x - z| < |y - z|
  · dsimp only
    rw [if_pos hlt]
    exact core x y (Or.inl hsides) hlt.le rfl (hT x hx (hxy.le.trans hy))
  · dsimp only
    rw [if_neg hlt]
    exact core y x (Or.inr hsides) (not_lt.mp hlt) (abs_sub_comm _ _) (hT y (hx.trans hxy.le) hy)

end Verif.Search
