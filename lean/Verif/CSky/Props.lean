import Verif.CSky.Model
import Verif.Grid.Props
import Verif.Ffi.Props

/-
C223: the sky grid of the C interface.
-/
namespace Verif.CSky
open Verif.Grid Verif.Ffi
open Verif.Ffi.Props (AllocOk array_contract free_once null_output)

theorem flat_index {α β : Type} (f : α → List β) (m : ℕ) (hf : ∀ a, (f a).length = m) (l : List α) (i j : ℕ)
    (hj : j < m) : (l.flatMap f)[i * m + j]? = (l[i]?).bind fun a => (f a)[j]? := by
  induction l generalizing i with
  | nil => simp
  | cons a l ih =>
    rw [List.flatMap_cons]
    cases i with
    | zero =>
      rw [List.getElem?_append_left (by rw [hf]; omega)]
      simp
    | succ i =>
      rw [List.getElem?_append_right (by rw [hf]; nlinarith)]
      rw [hf, show (i + 1) * m + j - m = i * m + j by rw [Nat.add_mul]; omega, ih]
      simp

/-- **C223 (null outputs).** -/
theorem null_outputs (A : Alloc) (a b s t : ℝ) (e : Bool) (out count : Addr) (m : Mem CCell)
    (h : out = 0 ∨ count = 0) : skyGridCells A a b s t e out count m = (.nullPointer, m) := if_pos h

/-- **C223 (contract).** For all finite numbers and two distinct output pointers the call succeeds; the array holds as
many cells as the grid has, in its order, every altitude above the lower and at most the upper end of the band; other
cells and blocks of memory are untouched; releasing it with that count restores the memory owned by the library. -/
theorem grid_contract (A : Alloc) (hA : AllocOk A) (lo hi s t : ℝ) (e : Bool) (out count : Addr) (m : Mem CCell)
    (ho : out ≠ 0) (hc : count ≠ 0) (hoc : out ≠ count) :
    ∃ (p : Addr) (m' : Mem CCell) (cells : List CCell), skyGridCells A lo hi s t e out count m = (.ok, m') ∧
      m'.cells out = some (.word p) ∧ p ≠ 0 ∧ m'.cells count = some (.word cells.length) ∧
      cells.length = (gridOf lo hi s t e).len ∧
      (cells ≠ [] → (p, cells) ∈ m'.heap ∧ p ∉ m.heap.map Prod.fst) ∧
      (∀ c ∈ cells, lo < c.altitude ∧ c.altitude ≤ hi) ∧
      (∀ q, q ≠ out → q ≠ count → m'.cells q = m.cells q) ∧ (∀ b ∈ m.heap, b ∈ m'.heap) ∧
      ∃ m'', skyGridFree p cells.length m' = some m'' ∧ m''.heap = m.heap := by
  obtain ⟨p, m', h1, h2, h3, h4, h5, h6, h7, m'', h8, h9, -⟩ :=
    array_contract A hA (gridOf lo hi s t e).cells ffiFrom out count m ho hc hoc
  refine ⟨p, m', (gridOf lo hi s t e).cells.map ffiFrom, ?_, h3, h2, by rw [List.length_map]; exact h4,
    by rw [List.length_map]; exact (len_exact _).1, ?_, ?_, h5, h7, m'', by rw [List.length_map]; exact h8, h9⟩
  · unfold skyGridCells
    rw [if_neg (by tauto)]
    exact h1
  · intro hn
    exact h6 (by simpa using hn)
  · intro c hcm
    obtain ⟨c', hc', rfl⟩ := List.mem_map.mp hcm
    have h := altitude_range hc'
    have e1 : (gridOf lo hi s t e).altMin = lo ∧ (gridOf lo hi s t e).altMax = hi := ⟨rfl, rfl⟩
    rw [e1.1, e1.2] at h
    exact h

/-- **C223 (released once).** A second release, or one with another count, is not a defined operation. -/
theorem grid_released_once (A : Alloc) (hA : AllocOk A) (lo hi s t : ℝ) (e : Bool) (out count : Addr) (m : Mem CCell)
    (ho : out ≠ 0) (hc : count ≠ 0) (hoc : out ≠ count) (hne : (gridOf lo hi s t e).cells ≠ []) :
    ∃ (p : Addr) (m' m'' : Mem CCell), skyGridCells A lo hi s t e out count m = (.ok, m') ∧
      m'.cells out = some (.word p) ∧ skyGridFree p (gridOf lo hi s t e).len m' = some m'' ∧
      (∀ n, 0 < n → skyGridFree p n m'' = none) ∧
      (∀ n, 0 < n → n ≠ (gridOf lo hi s t e).len → skyGridFree p n m' = none) := by
  obtain ⟨p, m', m'', h1, h2, h3, h4, h5⟩ := free_once A hA (gridOf lo hi s t e).cells ffiFrom out count m ho hc hoc hne
  rw [(len_exact _).1] at h3 h5
  refine ⟨p, m', m'', ?_, h2, h3, h4, h5⟩
  unfold skyGridCells
  rw [if_neg (by tauto)]
  exact h1

/-- **C223 (the uniform grid, cell by cell).** For a band of `n` rings and `k` cells in a ring the array has `n·k`
cells, and the cell of ring `i` and place `j` is number `i·k + j`: the middle of its ring, the middle of its azimuth
range, and the solid angle `cos(alt)·Δalt·Δaz` in radians. -/
theorem uniform_cells (lo s : ℝ) (hs : 0 < s) (n k : ℕ) (hn : 0 < n) (hk : 0 < k) :
    ((gridOf lo (lo + n * s) s (360 / k) false).cells.map ffiFrom).length = n * k ∧
    ∀ i j, i < n → j < k →
      ((gridOf lo (lo + n * s) s (360 / k) false).cells.map ffiFrom)[i * k + j]? =
        some ⟨lo + (i + 0.5) * s, (j + 0.5) * (360 / k),
          Real.cos ((lo + (i + 0.5) * s) * (Real.pi / 180)) * (s * (Real.pi / 180)) *
            (360 / k * (Real.pi / 180))⟩ := by
  set g := gridOf lo (lo + n * s) s (360 / k) false with hg
  have hn' : (0 : ℝ) < n := by exact_mod_cast hn
  have hk' : (0 : ℝ) < k := by exact_mod_cast hk
  have h1 : g.nAlt = n := by
    show (if lo + n * s ≤ lo ∨ s ≤ 0 then 0 else Grid.roundUsize ((lo + n * s - lo) / s)) = n
    rw [if_neg (by push Not; exact ⟨by nlinarith [mul_pos hn' hs], hs⟩)]
    rw [show (lo + n * s - lo) / s = n by field_simp; ring, round_nat]
  have h2 : g.nAzUniform = k := by
    show (if (360 : ℝ) / k ≤ 0 then 0 else Grid.roundUsize (360 / (360 / k))) = k
    rw [if_neg (by push Not; positivity), show (360 : ℝ) / (360 / k) = k by field_simp, round_nat]
  have hl : ∀ i, (g.row i).length = k := by
    intro i
    rw [row_length]
    show (if false = true then _ else g.nAzUniform) = k
    rw [if_neg (by simp), h2]
  constructor
  · rw [List.length_map, (len_exact g).1]
    show (if false = true then _ else g.nAlt * g.nAzUniform) = n * k
    rw [if_neg (by simp), h1, h2]
  · intro i j hi hj
    rw [List.getElem?_map]
    show Option.map ffiFrom (((List.range g.nAlt).flatMap g.row)[i * k + j]?) = _
    rw [flat_index g.row k hl _ _ _ hj, h1, List.getElem?_range hi]
    show Option.map ffiFrom ((g.row i)[j]?) = _
    have hr : (g.row i) = (List.range k).map fun j : ℕ =>
        (⟨lo + (i + 0.5) * s, (j + 0.5) * (360 / k),
          Real.cos ((lo + (i + 0.5) * s) * (Real.pi / 180)) * (s * (Real.pi / 180)) *
            (360 / k * (Real.pi / 180))⟩ : Grid.Cell) := by
      unfold Grid.Grid.row
      have he : g.equalArea = false := rfl
      simp only [he, h2]
      rfl
    rw [hr, List.getElem?_map, List.getElem?_range hj]
    rfl

/-- The hypotheses of `uniform_cells` for the ten-degree grid: 9 rings of 36 cells. -/
example : ((gridOf 0 (0 + (9 : ℕ) * 10) 10 (360 / (36 : ℕ)) false).cells.map ffiFrom).length = 324 :=
  (uniform_cells 0 10 (by norm_num) 9 36 (by norm_num) (by norm_num)).1

/-- **Finding (C223): unusable steps and bands are accepted.** A step that is not positive, or a band that is empty,
is no error: the call succeeds with no cells. -/
theorem unusable_accepted (A : Alloc) (hA : AllocOk A) (lo hi s t : ℝ) (e : Bool) (out count : Addr) (m : Mem CCell)
    (ho : out ≠ 0) (hc : count ≠ 0) (hoc : out ≠ count) (h : hi ≤ lo ∨ s ≤ 0 ∨ (e = false ∧ t ≤ 0)) :
    ∃ m', skyGridCells A lo hi s t e out count m = (.ok, m') ∧ m'.cells count = some (.word 0) := by
  obtain ⟨p, m', cells, h1, -, -, h3, h4, -⟩ := grid_contract A hA lo hi s t e out count m ho hc hoc
  refine ⟨m', h1, ?_⟩
  rw [h3, h4]
  congr 2
  have hz : hi ≤ lo ∨ s ≤ 0 → (gridOf lo hi s t e).nAlt = 0 := by
    intro h
    have : (gridOf lo hi s t e).altStep = s := by unfold gridOf; cases e <;> rfl
    unfold Grid.Grid.nAlt
    rw [this]
    exact if_pos h
  have hcase : (hi ≤ lo ∨ s ≤ 0) ∨ (e = false ∧ t ≤ 0) := by tauto
  rcases hcase with h | ⟨rfl, ht⟩
  · unfold Grid.Grid.len
    rw [hz h]
    split <;> simp
  · show (if false = true then _ else _ * (if t ≤ 0 then 0 else _)) = 0
    rw [if_neg (by simp), if_pos ht, Nat.mul_zero]

/-- **Finding (C223): bands beyond the zenith are accepted.** Cells outside the documented altitudes [-90°, 90°] are
handed out, with a negative solid angle. -/
theorem beyond_zenith : ∃ c ∈ (gridOf 0 180 60 360 false).cells.map ffiFrom, c.altitude = 150 ∧ c.solidAngle < 0 := by
  have h := (uniform_cells 0 60 (by norm_num) 3 1 (by norm_num) (by norm_num)).2 2 0 (by norm_num) (by norm_num)
  rw [show (0 : ℝ) + ((3 : ℕ) : ℝ) * 60 = 180 by norm_num, show (360 : ℝ) / ((1 : ℕ) : ℝ) = 360 by norm_num] at h
  refine ⟨_, List.mem_of_getElem? h, by norm_num, ?_⟩
  dsimp only
  have hpi := Real.pi_pos
  have hc : Real.cos ((0 + (((2 : ℕ) : ℝ) + 0.5) * 60) * (Real.pi / 180)) < 0 := by
    apply Real.cos_neg_of_pi_div_two_lt_of_lt <;> norm_num <;> nlinarith
  have h2 : 0 < 60 * (Real.pi / 180) := by positivity
  have h3 : 0 < 360 * (Real.pi / 180) := by positivity
  nlinarith [mul_neg_of_neg_of_pos (mul_neg_of_neg_of_pos hc h2) h3]

/-- For finite numbers `rows` is the number of rings of the grid, as far as a 64-bit count goes. -/
theorem rows_finite (lo hi s t : ℝ) (e : Bool) :
    rows (.fin lo) (.fin hi) (.fin s) = min (gridOf lo hi s t e).nAlt (2 ^ 64 - 1) := by
  have : (gridOf lo hi s t e).altStep = s := by unfold gridOf; cases e <;> rfl
  unfold rows Grid.Grid.nAlt
  rw [this]
  show (if hi ≤ lo ∨ s ≤ 0 then 0 else _) = min (if hi ≤ lo ∨ s ≤ 0 then 0 else _) _
  split
  · simp
  · rfl

/-- **Finding (C223): no bound on the request.** An upper end of plus infinity is accepted and asks for 2⁶⁴-1 rings,
which the call then tries to collect; a NaN step or end gives no cells and success. -/
theorem infinite_band (lo s : ℝ) (hs : 0 < s) :
    rows (.fin lo) .pinf (.fin s) = 2 ^ 64 - 1 ∧ (∀ hi, rows (.fin lo) (.fin hi) .nan = 0) ∧
      rows .nan (.fin s) (.fin s) = 0 ∧ rows (.fin lo) .nan (.fin s) = 0 := by
  refine ⟨?_, fun hi => ?_, ?_, ?_⟩
  · unfold rows
    rw [if_neg]
    · rfl
    · rintro (h | h)
      · exact h
      · exact absurd (show s ≤ 0 from h) (not_le.mpr hs)
  · unfold rows
    split <;> rfl
  · unfold rows
    split <;> rfl
  · unfold rows
    split <;> rfl

end Verif.CSky
