import Verif.Grid.Model
import Verif.Grid.Spec
import Mathlib.Analysis.SpecialFunctions.Trigonometric.Bounds
import Mathlib.Analysis.Real.Pi.Bounds

/-!
# Sky grids (C117)
-/

namespace Verif.Grid

open Classical

/-! ## Counting -/

theorem round_bounds {x : ℝ} (hx : 0 < x) : x - 1 / 2 < roundUsize x ∧ (roundUsize x : ℝ) ≤ x + 1 / 2 := by
  unfold roundUsize
  rw [if_neg (not_le.mpr hx)]
  have h0 : 0 ≤ ⌊x + 1 / 2⌋ := Int.floor_nonneg.mpr (by linarith)
  have e : ((⌊x + 1 / 2⌋.toNat : ℕ) : ℝ) = (⌊x + 1 / 2⌋ : ℝ) := by
    have := Int.toNat_of_nonneg h0
    exact_mod_cast this
  rw [e]
  have h1 := Int.floor_le (x + 1 / 2)
  have h2 := Int.lt_floor_add_one (x + 1 / 2)
  constructor <;> linarith

theorem round_nat (n : ℕ) : roundUsize (n : ℝ) = n := by
  rcases Nat.eq_zero_or_pos n with h | h
  · subst h; simp [roundUsize]
  · have hx : (0 : ℝ) < n := by exact_mod_cast h
    obtain ⟨h1, h2⟩ := round_bounds hx
    have a : (n : ℝ) < (roundUsize (n : ℝ) + 1 : ℕ) := by push_cast; linarith
    have b : ((roundUsize (n : ℝ) : ℕ) : ℝ) < (n + 1 : ℕ) := by push_cast; linarith
    have a' := Nat.cast_lt.mp a
    have b' := Nat.cast_lt.mp b
    omega

/-- Number of cells in a row. -/
theorem row_length (g : Grid) (i : ℕ) :
    (g.row i).length = if g.equalArea then g.nAzEqualArea (g.rowAlt i) else g.nAzUniform := by
  unfold Grid.row Grid.nAzEqualArea
  simp only [List.length_map, List.length_range]
  split
  · by_cases h : toRad g.azStep ≤ 0
    · rw [if_neg (not_lt.mpr h), if_pos h]; simp
    · rw [if_pos (not_le.mp h), if_neg h]
  · rfl

/-- **C117**: `len` is the number of cells that the iteration yields, for every grid, in both modes and also for
degenerate steps and ranges. -/
theorem len_exact (g : Grid) : g.cells.length = g.len ∧ g.directions.length = g.len ∧ g.weighted.length = g.len := by
  have h : g.cells.length = g.len := by
    unfold Grid.cells Grid.len
    rw [List.length_flatMap]
    simp only [row_length]
    split
    · rfl
    · rw [List.map_const', List.sum_replicate, List.length_range, smul_eq_mul]
  refine ⟨h, ?_, ?_⟩
  · unfold Grid.directions; rw [List.length_map, h]
  · unfold Grid.weighted; rw [List.length_map, h]

theorem mem_cells {g : Grid} {c : Cell} (h : c ∈ g.cells) : ∃ i < g.nAlt, c ∈ g.row i := by
  unfold Grid.cells at h
  rw [List.mem_flatMap] at h
  obtain ⟨i, hi, hc⟩ := h
  exact ⟨i, List.mem_range.mp hi, hc⟩

theorem row_alt {g : Grid} {i : ℕ} {c : Cell} (h : c ∈ g.row i) : c.alt = g.rowAlt i := by
  unfold Grid.row at h
  simp only [List.mem_map] at h
  obtain ⟨j, _, rfl⟩ := h
  rfl

theorem nAlt_pos {g : Grid} {i : ℕ} (h : i < g.nAlt) : g.altMin < g.altMax ∧ 0 < g.altStep := by
  unfold Grid.nAlt at h
  split at h
  · omega
  · rename_i hn
    push Not at hn
    exact hn

/-- **C117**: rows lie strictly above the lower altitude and not above the upper one. -/
theorem altitude_range {g : Grid} {c : Cell} (h : c ∈ g.cells) : g.altMin < c.alt ∧ c.alt ≤ g.altMax := by
  obtain ⟨i, hi, hc⟩ := mem_cells h
  obtain ⟨h1, h2⟩ := nAlt_pos hi
  rw [row_alt hc]
  unfold Grid.nAlt at hi
  rw [if_neg (by push Not; exact ⟨h1, h2⟩)] at hi
  have hx : 0 < (g.altMax - g.altMin) / g.altStep := div_pos (by linarith) h2
  have hr := (round_bounds hx).2
  have hi' : (i : ℝ) + 1 ≤ roundUsize ((g.altMax - g.altMin) / g.altStep) := by exact_mod_cast hi
  have hle : (i : ℝ) + 0.5 ≤ (g.altMax - g.altMin) / g.altStep := by linarith
  rw [le_div_iff₀ h2] at hle
  have h0 : (0 : ℝ) ≤ i := Nat.cast_nonneg i
  unfold Grid.rowAlt
  constructor
  · nlinarith
  · linarith

/-- **C117**: cells come row by row, upwards, and eastwards within a row, without repetition. -/
theorem cells_ordered (g : Grid) : g.directions.Pairwise Spec.Before := by
  unfold Grid.directions
  rw [List.pairwise_map]
  unfold Grid.cells
  rw [List.pairwise_flatMap]
  constructor
  · intro i _
    unfold Grid.row
    simp only
    rw [List.pairwise_map]
    by_cases he : g.equalArea = true
    · simp only [if_pos he]
      generalize max (if toRad g.azStep > 0 then _ else 1) 1 = n
      rcases Nat.eq_zero_or_pos n with h | h
      · subst h; simp
      · refine List.pairwise_lt_range.imp ?_
        intro a b hab
        right
        refine ⟨rfl, ?_⟩
        have hn : (0 : ℝ) < n := by exact_mod_cast h
        have : (a : ℝ) < b := by exact_mod_cast hab
        have : (0 : ℝ) < 360 / n := by positivity
        simp only
        nlinarith
    · simp only [if_neg he]
      unfold Grid.nAzUniform
      split
      · simp
      · rename_i hz
        push Not at hz
        refine List.pairwise_lt_range.imp ?_
        intro a b hab
        right
        refine ⟨rfl, ?_⟩
        have : (a : ℝ) < b := by exact_mod_cast hab
        simp only
        nlinarith
  · by_cases hn : g.nAlt = 0
    · rw [hn]; simp
    · obtain ⟨_, hs⟩ := nAlt_pos (Nat.pos_of_ne_zero hn)
      refine List.pairwise_lt_range.imp ?_
      intro a b hab x hx y hy
      left
      rw [row_alt hx, row_alt hy]
      unfold Grid.rowAlt
      have : (a : ℝ) < b := by exact_mod_cast hab
      nlinarith

/-! ## Azimuths -/

/-- **C117**: in an equal-area grid every azimuth lies in `[0°, 360°)`, and so it does in a uniform grid whose step
divides the circle. -/
theorem azimuth_range {g : Grid} (hg : g.equalArea = true ∨ ∃ n : ℕ, 0 < n ∧ g.azStep = 360 / n) {c : Cell} (h : c ∈ g.cells) :
    0 < c.az ∧ c.az < 360 := by
  obtain ⟨i, hi, hc⟩ := mem_cells h
  have key : ∀ (n j : ℕ), j < n → 0 < ((j : ℝ) + 0.5) * (360 / n) ∧ ((j : ℝ) + 0.5) * (360 / n) < 360 := by
    intro n j hj
    have hn : (0 : ℝ) < n := by exact_mod_cast (by omega : 0 < n)
    have hj' : (j : ℝ) + 1 ≤ n := by exact_mod_cast hj
    refine ⟨by positivity, ?_⟩
    rw [mul_div_assoc', div_lt_iff₀ hn]
    linarith
  unfold Grid.row at hc
  simp only [List.mem_map, List.mem_range] at hc
  obtain ⟨j, hj, rfl⟩ := hc
  rcases hg with he | ⟨n, hn, hst⟩
  · simp only [if_pos he] at hj ⊢
    exact key _ j hj
  · by_cases he : g.equalArea = true
    · simp only [if_pos he] at hj ⊢
      exact key _ j hj
    · simp only [if_neg he] at hj ⊢
      have hnn : (0 : ℝ) < n := by exact_mod_cast hn
      have : g.nAzUniform = n := by
        unfold Grid.nAzUniform
        rw [if_neg (by rw [hst]; push Not; positivity), hst]
        have : (360 : ℝ) / (360 / n) = n := by field_simp
        rw [this, round_nat]
      rw [this] at hj
      rw [hst]
      exact key _ j hj

/-- **C117 (finding)**: a uniform grid whose step does not divide the circle can point at azimuth `360°`, outside the
documented `[0°, 360°)`: step `144°` has centres at `72°`, `216°` and `360°`, the last cell overlapping the first by
half a step. -/
theorem azimuth_overflow : ∃ c ∈ (withSteps 90 144).cells, c.az = 360 := by
  have h1 : (withSteps 90 144).nAlt = 1 := by
    unfold Grid.nAlt withSteps
    simp only
    rw [if_neg (by norm_num)]
    have := round_nat 1
    push_cast at this
    rw [show ((90 : ℝ) - 0) / 90 = 1 by norm_num, this]
  have h2 : (withSteps 90 144).nAzUniform = 3 := by
    unfold Grid.nAzUniform withSteps
    simp only
    rw [if_neg (by norm_num)]
    unfold roundUsize
    rw [if_neg (by norm_num), show (360 : ℝ) / 144 + 1 / 2 = ((3 : ℤ) : ℝ) by norm_num, Int.floor_intCast]
    rfl
  have hm : ∃ c ∈ (withSteps 90 144).row 0, c.az = 360 := by
    unfold Grid.row
    simp only [withSteps, Bool.false_eq_true, if_false] at h2 ⊢
    rw [h2]
    refine ⟨_, List.mem_map.mpr ⟨2, by simp, rfl⟩, ?_⟩
    norm_num
  obtain ⟨c, hc, haz⟩ := hm
  refine ⟨c, ?_, haz⟩
  unfold Grid.cells
  rw [h1, List.mem_flatMap]
  exact ⟨0, by simp, hc⟩

/-! ## Coverage -/

/-- **C117**: when the steps divide the zone and the circle, the cells of a uniform grid tile the zone: every
direction of it lies in exactly one of them. -/
theorem cells_tile {lo step az : ℝ} {n m : ℕ} (hn : 0 < n) (hm : 0 < m) (hs : 0 < step) (ha : az = 360 / m)
    {p : ℝ × ℝ} (hp : lo ≤ p.1 ∧ p.1 < lo + n * step ∧ 0 ≤ p.2 ∧ p.2 < 360) :
    ∃! q, q ∈ ((withSteps step az).withAltRange lo (lo + n * step)).directions ∧ Spec.Holds q step az p := by
  have hm' : (0 : ℝ) < m := by exact_mod_cast hm
  have hn' : (0 : ℝ) < n := by exact_mod_cast hn
  have haz : 0 < az := by rw [ha]; positivity
  set g := (withSteps step az).withAltRange lo (lo + n * step) with hg
  have h1 : g.nAlt = n := by
    unfold Grid.nAlt
    have e1 : g.altMin = lo := rfl
    have e2 : g.altMax = lo + n * step := rfl
    have e3 : g.altStep = step := rfl
    rw [e1, e2, e3, if_neg (by push Not; exact ⟨by nlinarith [mul_pos hn' hs], hs⟩)]
    have : (lo + n * step - lo) / step = n := by field_simp; ring
    rw [this, round_nat]
  have h2 : g.nAzUniform = m := by
    unfold Grid.nAzUniform
    have e : g.azStep = az := rfl
    rw [e, if_neg (not_le.mpr haz), ha]
    have : (360 : ℝ) / (360 / m) = m := by field_simp
    rw [this, round_nat]
  have hmem : ∀ q : ℝ × ℝ, q ∈ g.directions ↔
      ∃ i < n, ∃ j < m, q = (lo + ((i : ℝ) + 0.5) * step, ((j : ℝ) + 0.5) * az) := by
    intro q
    unfold Grid.directions Grid.cells Grid.row
    have e4 : g.equalArea = false := rfl
    have e5 : g.azStep = az := rfl
    simp only [e4, h1, h2, e5, Bool.false_eq_true, if_false, List.mem_map, List.mem_flatMap, List.mem_range]
    constructor
    · rintro ⟨c, ⟨i, hi, j, hj, rfl⟩, rfl⟩
      exact ⟨i, hi, j, hj, rfl⟩
    · rintro ⟨i, hi, j, hj, rfl⟩
      exact ⟨_, ⟨i, hi, j, hj, rfl⟩, rfl⟩
  have index : ∀ (x st : ℝ) (k : ℕ), 0 < st → 0 ≤ x → x < k * st → ∃ i < k, (i : ℝ) * st ≤ x ∧ x < ((i : ℝ) + 1) * st := by
    intro x st k hst h0 hx
    refine ⟨⌊x / st⌋₊, ?_, ?_, ?_⟩
    · rw [Nat.floor_lt (div_nonneg h0 hst.le), div_lt_iff₀ hst]
      exact hx
    · rw [← le_div_iff₀ hst]
      exact Nat.floor_le (div_nonneg h0 hst.le)
    · rw [← div_lt_iff₀ hst]
      exact Nat.lt_floor_add_one _
  obtain ⟨i, hi, hi1, hi2⟩ := index (p.1 - lo) step n hs (by linarith) (by linarith)
  obtain ⟨j, hj, hj1, hj2⟩ := index p.2 az m haz hp.2.2.1 (by rw [ha, mul_div_cancel₀ _ hm'.ne']; exact hp.2.2.2)
  refine ⟨(lo + ((i : ℝ) + 0.5) * step, ((j : ℝ) + 0.5) * az), ⟨(hmem _).mpr ⟨i, hi, j, hj, rfl⟩, ?_⟩, ?_⟩
  · unfold Spec.Holds
    simp only
    refine ⟨?_, ?_, ?_, ?_⟩ <;> linarith
  · rintro q ⟨hq, hh⟩
    obtain ⟨i', hi', j', hj', rfl⟩ := (hmem q).mp hq
    unfold Spec.Holds at hh
    simp only at hh
    obtain ⟨a1, a2, a3, a4⟩ := hh
    have uniq : ∀ (x st : ℝ) (a b : ℕ), 0 < st → (a : ℝ) * st ≤ x → x < ((a : ℝ) + 1) * st →
        (b : ℝ) * st ≤ x → x < ((b : ℝ) + 1) * st → a = b := by
      intro x st a b hst u1 u2 u3 u4
      have v1 : (a : ℝ) < b + 1 := lt_of_mul_lt_mul_right (lt_of_le_of_lt u1 u4) hst.le
      have v2 : (b : ℝ) < a + 1 := lt_of_mul_lt_mul_right (lt_of_le_of_lt u3 u2) hst.le
      have w1 : a < b + 1 := by exact_mod_cast v1
      have w2 : b < a + 1 := by exact_mod_cast v2
      omega
    have e1 : i' = i := uniq (p.1 - lo) step i' i hs (by linarith) (by linarith) hi1 hi2
    have e2 : j' = j := uniq p.2 az j' j haz (by linarith) (by linarith) hj1 hj2
    rw [e1, e2]

/-! ## Solid angle -/

/-- The midpoint sum of cosines telescopes. -/
theorem midpoint_sum (a h : ℝ) (n : ℕ) :
    2 * Real.sin (h / 2) * ((List.range n).map fun i : ℕ => Real.cos (a + ((i : ℝ) + 0.5) * h)).sum
      = Real.sin (a + n * h) - Real.sin a := by
  induction n with
  | zero => simp
  | succ n ih =>
    rw [List.range_succ, List.map_append, List.sum_append, mul_add, ih]
    simp only [List.map_cons, List.map_nil, List.sum_cons, List.sum_nil, add_zero]
    push_cast
    have e1 : a + ((n : ℝ) + 1) * h = (a + ((n : ℝ) + 0.5) * h) + h / 2 := by ring
    have e2 : a + (n : ℝ) * h = (a + ((n : ℝ) + 0.5) * h) - h / 2 := by ring
    rw [e1, e2, Real.sin_add, Real.sin_sub]
    ring

theorem row_solid (g : Grid) (i : ℕ) :
    ((g.row i).map Cell.solid).sum = Real.cos (toRad (g.rowAlt i)) * toRad g.altStep *
      (if g.equalArea then 2 * Real.pi else g.nAzUniform * toRad g.azStep) := by
  unfold Grid.row
  simp only [List.map_map, Function.comp_def, List.map_const', List.sum_replicate, List.length_range, nsmul_eq_mul]
  by_cases he : g.equalArea = true
  · simp only [if_pos he]
    generalize hn : max (if toRad g.azStep > 0 then _ else 1) 1 = n
    have hn1 : 1 ≤ n := by rw [← hn]; exact le_max_right _ _
    have : (n : ℝ) ≠ 0 := by
      have : (0 : ℝ) < n := by exact_mod_cast hn1
      exact this.ne'
    unfold toRad
    field_simp
    ring
  · simp only [if_neg he]
    ring

/-- **C117**: the solid angles of an equal-area grid, or of a uniform grid whose azimuth step divides the circle, add
up to the solid angle of the zone times `(δ/2)/sin(δ/2)`, where `δ` is the altitude step: exactly, for every number of
rows. -/
theorem solid_total {g : Grid} (hg : g.equalArea = true ∨ ∃ n : ℕ, 0 < n ∧ g.azStep = 360 / n) {n : ℕ} (hn : 0 < n)
    (hs : 0 < g.altStep) (hr : g.altMax = g.altMin + n * g.altStep) :
    2 * Real.sin (toRad g.altStep / 2) * (g.cells.map Cell.solid).sum
      = toRad g.altStep * Spec.zone g.altMin g.altMax := by
  have hn' : (0 : ℝ) < n := by exact_mod_cast hn
  have h1 : g.nAlt = n := by
    unfold Grid.nAlt
    rw [hr, if_neg (by push Not; exact ⟨by nlinarith [mul_pos hn' hs], hs⟩)]
    have : (g.altMin + n * g.altStep - g.altMin) / g.altStep = n := by field_simp; ring
    rw [this, round_nat]
  have h2 : (if g.equalArea then 2 * Real.pi else g.nAzUniform * toRad g.azStep) = 2 * Real.pi := by
    split
    · rfl
    · rename_i he
      rcases hg with h | ⟨m, hm, hst⟩
      · exact absurd h he
      · have hm' : (0 : ℝ) < m := by exact_mod_cast hm
        have : g.nAzUniform = m := by
          unfold Grid.nAzUniform
          rw [hst, if_neg (by push Not; positivity)]
          have : (360 : ℝ) / (360 / m) = m := by field_simp
          rw [this, round_nat]
        rw [this, hst]
        unfold toRad
        field_simp
        ring
  have h3 : (g.cells.map Cell.solid).sum
      = 2 * Real.pi * toRad g.altStep * ((List.range n).map fun i : ℕ => Real.cos (toRad g.altMin + ((i : ℝ) + 0.5) * toRad g.altStep)).sum := by
    unfold Grid.cells
    rw [h1]
    generalize List.range n = l
    induction l with
    | nil => simp
    | cons i l ih =>
      rw [List.flatMap_cons, List.map_append, List.sum_append, ih, row_solid, h2, List.map_cons, List.sum_cons]
      have : toRad (g.rowAlt i) = toRad g.altMin + ((i : ℝ) + 0.5) * toRad g.altStep := by
        unfold toRad Grid.rowAlt; ring
      rw [this]
      ring
  have h4 := midpoint_sum (toRad g.altMin) (toRad g.altStep) n
  rw [h3]
  have e : 2 * Real.sin (toRad g.altStep / 2) * (2 * Real.pi * toRad g.altStep *
        ((List.range n).map fun i : ℕ => Real.cos (toRad g.altMin + ((i : ℝ) + 0.5) * toRad g.altStep)).sum)
      = 2 * Real.pi * toRad g.altStep * (2 * Real.sin (toRad g.altStep / 2) *
        ((List.range n).map fun i : ℕ => Real.cos (toRad g.altMin + ((i : ℝ) + 0.5) * toRad g.altStep)).sum) := by ring
  rw [e, h4]
  have e1 : toRad g.altMin + n * toRad g.altStep = g.altMax / 180 * Real.pi := by rw [hr]; unfold toRad; ring
  have e2 : toRad g.altMin = g.altMin / 180 * Real.pi := by unfold toRad; ring
  unfold Spec.zone
  rw [e1, e2]
  ring

/-- **C117**: the total exceeds the solid angle of the zone, by a relative error of at most `δ²/16` (`δ` in radians,
up to a right angle): below 0.05 % at 5°. -/
theorem solid_error {g : Grid} (hg : g.equalArea = true ∨ ∃ n : ℕ, 0 < n ∧ g.azStep = 360 / n) {n : ℕ} (hn : 0 < n)
    (hs : 0 < g.altStep) (h90 : g.altStep ≤ 90) (hr : g.altMax = g.altMin + n * g.altStep) (hz : 0 ≤ Spec.zone g.altMin g.altMax) :
    Spec.zone g.altMin g.altMax ≤ (g.cells.map Cell.solid).sum ∧
    (g.cells.map Cell.solid).sum ≤ Spec.zone g.altMin g.altMax * (1 + toRad g.altStep ^ 2 / 16) := by
  have ht := solid_total hg hn hs hr
  have hδ : 0 < toRad g.altStep := by unfold toRad; positivity
  have hδ2 : toRad g.altStep ≤ Real.pi / 2 := by
    unfold toRad
    have := Real.pi_pos
    nlinarith
  generalize Spec.zone g.altMin g.altMax = Z at *
  generalize (g.cells.map Cell.solid).sum = S at *
  generalize toRad g.altStep = δ at *
  have hpi : Real.pi < 3.15 := Real.pi_lt_d2
  have s1 : Real.sin (δ / 2) < δ / 2 := Real.sin_lt (by linarith)
  have s2 : δ / 2 - (δ / 2) ^ 3 / 6 < Real.sin (δ / 2) := Real.sin_gt_sub_cube (by linarith)
  have s0 : 0 < Real.sin (δ / 2) := Real.sin_pos_of_pos_of_lt_pi (by linarith) (by linarith [Real.pi_pos])
  obtain ⟨y, hy⟩ : ∃ y, y = δ / 2 := ⟨_, rfl⟩
  have hd : δ = 2 * y := by rw [hy]; ring
  rw [← hy] at ht s1 s2 s0
  have hS : S = y * Z / Real.sin y := by
    rw [eq_div_iff s0.ne']
    rw [hd] at ht
    linarith
  have hy0 : 0 < y := by linarith
  have hy1 : y < 0.8 := by linarith
  rw [hS, hd]
  constructor
  · rw [le_div_iff₀ s0]
    nlinarith
  · rw [div_le_iff₀ s0]
    have h1 : y ≤ (1 + (2 * y) ^ 2 / 16) * Real.sin y := by
      have : (1 + (2 * y) ^ 2 / 16) * (y - y ^ 3 / 6) ≤ (1 + (2 * y) ^ 2 / 16) * Real.sin y :=
        mul_le_mul_of_nonneg_left s2.le (by positivity)
      have hy2 : y ^ 2 ≤ 2 := by nlinarith
      have : y ≤ (1 + (2 * y) ^ 2 / 16) * (y - y ^ 3 / 6) := by
        have e : (1 + (2 * y) ^ 2 / 16) * (y - y ^ 3 / 6) = y + y ^ 3 * (2 - y ^ 2) / 24 := by ring
        rw [e]
        have : 0 ≤ y ^ 3 * (2 - y ^ 2) / 24 := by
          apply div_nonneg _ (by norm_num)
          exact mul_nonneg (by positivity) (by linarith)
        linarith
      linarith
    calc y * Z ≤ ((1 + (2 * y) ^ 2 / 16) * Real.sin y) * Z := mul_le_mul_of_nonneg_right h1 hz
      _ = Z * (1 + (2 * y) ^ 2 / 16) * Real.sin y := by ring

/-- The upper hemisphere in steps of 5° in altitude and 10° in azimuth. -/
example : 2 * Real.pi ≤ ((withSteps 5 10).cells.map Cell.solid).sum ∧
    ((withSteps 5 10).cells.map Cell.solid).sum ≤ 2 * Real.pi * 1.0005 := by
  have hz : Spec.zone (withSteps 5 10).altMin (withSteps 5 10).altMax = 2 * Real.pi := by
    unfold Spec.zone withSteps
    simp only
    rw [show (90 : ℝ) / 180 * Real.pi = Real.pi / 2 by ring, Real.sin_pi_div_two]
    simp
  have h := solid_error (g := withSteps 5 10) (Or.inr ⟨36, by norm_num, by norm_num [withSteps]⟩) (n := 18) (by norm_num)
    (by norm_num [withSteps]) (by norm_num [withSteps]) (by norm_num [withSteps]) (by rw [hz]; positivity)
  rw [hz] at h
  refine ⟨h.1, h.2.trans ?_⟩
  apply mul_le_mul_of_nonneg_left _ (by positivity)
  have e : toRad (withSteps 5 10).altStep = Real.pi / 36 := by unfold toRad withSteps; ring
  rw [e]
  have h1 := Real.pi_lt_d2
  have h2 := Real.pi_pos
  have : (Real.pi / 36) ^ 2 ≤ (3.15 / 36) ^ 2 := by
    apply pow_le_pow_left₀ (by positivity)
    linarith
  norm_num at this ⊢
  linarith

/-- **C117 (finding)**: without divisibility the azimuth cells overlap: at step `144°` the solid angles add up to more
than 1.3 times the hemisphere, where the midpoint rule with the same altitude rows gives at most 1.16 times. -/
theorem overlap_total :
    1.3 * (2 * Real.pi) ≤ ((withSteps 90 144).cells.map Cell.solid).sum ∧
    ((withSteps 90 120).cells.map Cell.solid).sum ≤ 1.16 * (2 * Real.pi) := by
  constructor
  · have h1 : (withSteps 90 144).nAlt = 1 := by
      unfold Grid.nAlt withSteps
      simp only
      rw [if_neg (by norm_num)]
      have := round_nat 1
      push_cast at this
      rw [show ((90 : ℝ) - 0) / 90 = 1 by norm_num, this]
    have h2 : (withSteps 90 144).nAzUniform = 3 := by
      unfold Grid.nAzUniform withSteps
      simp only
      rw [if_neg (by norm_num)]
      unfold roundUsize
      rw [if_neg (by norm_num), show (360 : ℝ) / 144 + 1 / 2 = ((3 : ℤ) : ℝ) by norm_num, Int.floor_intCast]
      rfl
    have h3 : ((withSteps 90 144).cells.map Cell.solid).sum = ((withSteps 90 144).row 0 |>.map Cell.solid).sum := by
      unfold Grid.cells
      rw [h1]
      simp
    rw [h3, row_solid, h2]
    simp only [withSteps, Bool.false_eq_true, if_false, Grid.rowAlt, toRad]
    rw [show (0 + ((0 : ℕ) + 0.5) * 90) * (Real.pi / 180) = Real.pi / 4 by push_cast; ring, Real.cos_pi_div_four]
    have hr : (1.41 : ℝ) < Real.sqrt 2 := by
      rw [Real.lt_sqrt (by norm_num)]; norm_num
    have hp := Real.pi_gt_d2
    have hp0 := Real.pi_pos
    have h5 : (1.41 : ℝ) * 3.14 ≤ Real.sqrt 2 * Real.pi := by
      apply mul_le_mul hr.le hp.le (by norm_num) (by positivity)
    have e : Real.sqrt 2 / 2 * (90 * (Real.pi / 180)) * (((3 : ℕ) : ℝ) * (144 * (Real.pi / 180)))
        = 0.6 * (Real.sqrt 2 * Real.pi) * Real.pi := by push_cast; ring
    rw [e]
    nlinarith
  · have hz : Spec.zone (withSteps 90 120).altMin (withSteps 90 120).altMax = 2 * Real.pi := by
      unfold Spec.zone withSteps
      simp only
      rw [show (90 : ℝ) / 180 * Real.pi = Real.pi / 2 by ring, Real.sin_pi_div_two]
      simp
    have h := (solid_error (g := withSteps 90 120) (Or.inr ⟨3, by norm_num, by norm_num [withSteps]⟩) (n := 1) (by norm_num)
      (by norm_num [withSteps]) (by norm_num [withSteps]) (by norm_num [withSteps]) (by rw [hz]; positivity)).2
    rw [hz] at h
    refine h.trans ?_
    rw [mul_comm]
    apply mul_le_mul_of_nonneg_right _ (by positivity)
    have e : toRad (withSteps 90 120).altStep = Real.pi / 2 := by unfold toRad withSteps; ring
    rw [e]
    have h1 := Real.pi_lt_d2
    have h2 := Real.pi_pos
    have : (Real.pi / 2) ^ 2 ≤ (3.15 / 2) ^ 2 := by
      apply pow_le_pow_left₀ (by positivity)
      linarith
    norm_num at this ⊢
    linarith

/-- **C117 (finding)**: … or leave a gap: at azimuth step `250°` no cell holds the direction at azimuth `300°`. -/
theorem coverage_gap : ∀ q ∈ (withSteps 90 250).directions, ¬ Spec.Holds q 90 250 (45, 300) := by
  intro q hq hh
  unfold Grid.directions at hq
  obtain ⟨c, hc, rfl⟩ := List.mem_map.mp hq
  obtain ⟨i, _, hr⟩ := mem_cells hc
  have h2 : (withSteps 90 250).nAzUniform = 1 := by
    unfold Grid.nAzUniform withSteps
    simp only
    rw [if_neg (by norm_num)]
    unfold roundUsize
    rw [if_neg (by norm_num)]
    have : ⌊(360 : ℝ) / 250 + 1 / 2⌋ = 1 := by
      rw [Int.floor_eq_iff]; norm_num
    rw [this]
    rfl
  unfold Grid.row at hr
  simp only [withSteps, Bool.false_eq_true, if_false] at h2 hr
  rw [h2] at hr
  simp only [List.range_one, List.map_cons, List.map_nil, List.mem_singleton] at hr
  have haz : c.az = 125 := by rw [hr]; norm_num
  unfold Spec.Holds at hh
  simp only at hh
  rw [haz] at hh
  linarith [hh.2.2.2]

/-- **C117**: in an equal-area grid with `n` cells in a row the solid angle of each differs from that of a cell at the
horizon, `Δalt · Δaz`, by at most one part in `2n`. -/
theorem equal_cells {g : Grid} (he : g.equalArea = true) (ha : 0 < g.azStep) {i : ℕ} (hs : 0 < g.altStep)
    (hc : toRad g.azStep / 2 ≤ 2 * Real.pi * Real.cos (toRad (g.rowAlt i))) {c : Cell} (h : c ∈ g.row i) :
    |c.solid - toRad g.altStep * toRad g.azStep| ≤ toRad g.altStep * toRad g.azStep / (2 * (g.row i).length) := by
  have hδ : 0 < toRad g.azStep := by unfold toRad; positivity
  have hΔ : 0 < toRad g.altStep := by unfold toRad; positivity
  have hcos : 0 < Real.cos (toRad (g.rowAlt i)) := by
    by_contra hneg
    push Not at hneg
    nlinarith [Real.pi_pos, mul_nonneg Real.pi_pos.le (neg_nonneg.mpr hneg)]
  rw [row_length, if_pos he]
  unfold Grid.row at h
  simp only [if_pos he, List.mem_map, List.mem_range] at h
  obtain ⟨j, _, rfl⟩ := h
  unfold Grid.nAzEqualArea
  simp only
  rw [if_pos hδ, if_neg (not_le.mpr hδ), max_eq_left hcos.le]
  obtain ⟨x, hx⟩ : ∃ x, x = 2 * Real.pi * Real.cos (toRad (g.rowAlt i)) / toRad g.azStep := ⟨_, rfl⟩
  have hx0 : 1 / 2 ≤ x := by rw [hx, le_div_iff₀ hδ]; linarith
  rw [← hx]
  obtain ⟨r1, r2⟩ := round_bounds (x := x) (by linarith)
  have hr : 1 ≤ roundUsize x := by
    have : (0 : ℝ) < roundUsize x := by linarith
    exact_mod_cast this
  rw [max_eq_left hr]
  generalize roundUsize x = n at *
  have hn : (0 : ℝ) < n := by exact_mod_cast hr
  have e : Real.cos (toRad (g.rowAlt i)) * toRad g.altStep * toRad (360 / n) - toRad g.altStep * toRad g.azStep
      = toRad g.altStep * toRad g.azStep * ((x - n) / n) := by
    have e1 : toRad (360 / n) = 2 * Real.pi / n := by unfold toRad; ring
    have e2 : Real.cos (toRad (g.rowAlt i)) * (2 * Real.pi) = x * toRad g.azStep := by rw [hx]; field_simp
    rw [e1]
    have : Real.cos (toRad (g.rowAlt i)) * toRad g.altStep * (2 * Real.pi / n)
        = (Real.cos (toRad (g.rowAlt i)) * (2 * Real.pi)) * toRad g.altStep / n := by ring
    rw [this, e2]
    field_simp
  rw [e, abs_mul, abs_of_pos (mul_pos hΔ hδ), abs_div, abs_of_pos hn]
  have : |x - n| ≤ 1 / 2 := abs_le.mpr ⟨by linarith, by linarith⟩
  rw [mul_div_assoc']
  rw [div_le_div_iff₀ hn (by positivity)]
  have hp : 0 < toRad g.altStep * toRad g.azStep := mul_pos hΔ hδ
  nlinarith [mul_le_mul_of_nonneg_left this (mul_pos hp hn).le]

/-- **C117**: the weighted directions are the directions with the solid angles of their cells, in order; a direction is the
altitude and the azimuth of the centre of its cell. -/
theorem weighted_spec (g : Grid) (k : ℕ) (alt az w : ℝ) : g.weighted[k]? = some ((alt, az), w) ↔
    g.directions[k]? = some (alt, az) ∧ g.cells[k]? = some ⟨alt, az, w⟩ := by
  unfold Grid.weighted Grid.directions
  simp only [List.getElem?_map]
  rcases g.cells[k]? with _ | ⟨a, b, c⟩
  · simp
  · simp only [Option.map_some, Option.some.injEq, Prod.mk.injEq, Cell.mk.injEq]
    tauto

/-- **C117**: a grid asked for as equal-area has rows of almost equal cells from the horizon to the zenith. -/
theorem equal_area_grid {altStep azStep : ℝ} (ha : 0 < azStep) (hs : 0 < altStep) {i : ℕ}
    (hc : azStep / 720 ≤ Real.cos (toRad (((i : ℝ) + 1 / 2) * altStep))) {c : Cell} (h : c ∈ (equalArea altStep azStep).row i) :
    c.alt = ((i : ℝ) + 1 / 2) * altStep ∧
    |c.solid - toRad altStep * toRad azStep| ≤ toRad altStep * toRad azStep / (2 * ((equalArea altStep azStep).row i).length) := by
  have e : (equalArea altStep azStep).rowAlt i = ((i : ℝ) + 1 / 2) * altStep := by
    unfold Grid.rowAlt equalArea
    ring
  refine ⟨by rw [row_alt h, e], ?_⟩
  refine equal_cells (g := equalArea altStep azStep) rfl ha hs ?_ h
  rw [e]
  have e2 : toRad (equalArea altStep azStep).azStep = azStep * (Real.pi / 180) := rfl
  rw [e2]
  nlinarith [Real.pi_pos, mul_le_mul_of_nonneg_left hc Real.pi_pos.le]

end Verif.Grid
