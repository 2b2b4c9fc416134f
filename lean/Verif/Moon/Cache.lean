import Mathlib.Analysis.Convex.Function
import Mathlib.Tactic.Linarith
import Mathlib.Tactic.FieldSimp
import Verif.Moon.Model

/-
C79: the tables of the lunar search.
-/
namespace Verif.Moon
open Verif.Text (Res)

theorem index_ok {α : Type} {l : List α} {i : Nat} (h : i < l.length) : index l i = .ok l[i] := by
  unfold index
  rw [List.getElem?_eq_getElem h]

theorem nutStep_pos : 0 < nutStep := by unfold nutStep; norm_num

/-- The value of the chord of `f` over `[u, u + h]` at `t`. -/
noncomputable def chord (f : ℝ → ℝ) (u h t : ℝ) : ℝ := f u + (t - u) / h * (f (u + h) - f u)

/-- Where a table lookup is answered from, in the terms of the caller's window. -/
theorem nut_get (nut : ℝ → ℝ × ℝ × ℝ) (a b t : ℝ) :
    ((NutCache.new nut a b).get nut t = .ok (nut t) ∧ ¬ (a - 1 ≤ t ∧ t < b + 1)) ∨
    ∃ k : ℕ, a - 1 + k / 12 ≤ t ∧ t < a - 1 + k / 12 + 1 / 12 ∧
      (NutCache.new nut a b).get nut t = .ok
        (chord (fun x => (nut x).1) (a - 1 + k / 12) (1 / 12) t,
         chord (fun x => (nut x).2.1) (a - 1 + k / 12) (1 / 12) t,
         chord (fun x => (nut x).2.2) (a - 1 + k / 12) (1 / 12) t) := by
  have hpos := nutStep_pos
  unfold NutCache.get NutCache.new
  dsimp only
  by_cases h0 : t - (a - 1) < 0
  · left
    rw [if_pos h0]
    exact ⟨rfl, fun h => by linarith [h.1]⟩
  rw [if_neg h0]
  push Not at h0
  have hf0 : 0 ≤ (t - (a - 1)) / nutStep := div_nonneg h0 hpos.le
  set n := ⌈(b + 1 - (a - 1)) / nutStep⌉.toNat with hn
  by_cases h1 : n + 1 ≤ ⌊(t - (a - 1)) / nutStep⌋₊ + 1
  · left
    rw [if_pos h1]
    refine ⟨rfl, fun h => ?_⟩
    have h2 : (t - (a - 1)) / nutStep < (b + 1 - (a - 1)) / nutStep :=
      div_lt_div_of_pos_right (by linarith [h.2]) hpos
    have h3 : (n : ℝ) ≤ (t - (a - 1)) / nutStep :=
      (Nat.le_floor_iff hf0).mp (by omega)
    have h4 : ((⌈(b + 1 - (a - 1)) / nutStep⌉ : ℤ) : ℝ) ≤ (n : ℝ) := by
      have : ⌈(b + 1 - (a - 1)) / nutStep⌉ ≤ (n : ℤ) := by rw [hn]; exact Int.self_le_toNat _
      exact_mod_cast this
    have := Int.le_ceil ((b + 1 - (a - 1)) / nutStep)
    linarith
  · right
    rw [if_neg h1]
    push Not at h1
    set k := ⌊(t - (a - 1)) / nutStep⌋₊ with hk
    have k1 : (k : ℝ) ≤ (t - (a - 1)) / nutStep := Nat.floor_le hf0
    have k2 : (t - (a - 1)) / nutStep < k + 1 := Nat.lt_floor_add_one _
    rw [le_div_iff₀ hpos] at k1
    rw [div_lt_iff₀ hpos] at k2
    have hs : nutStep = 1 / 12 := by unfold nutStep; norm_num
    refine ⟨k, by rw [hs] at k1; linarith, by rw [hs] at k2; linarith, ?_⟩
    have l1 : k < ((List.range (n + 1)).map fun i : ℕ => nut (a - 1 + i * nutStep)).length := by
      simp; omega
    have l2 : k + 1 < ((List.range (n + 1)).map fun i : ℕ => nut (a - 1 + i * nutStep)).length := by
      simp; omega
    rw [index_ok l1, index_ok l2]
    simp only [List.getElem_map, List.getElem_range]
    have e1 : a - 1 + (k : ℝ) * nutStep = a - 1 + k / 12 := by rw [hs]; ring
    have e2 : a - 1 + ((k + 1 : ℕ) : ℝ) * nutStep = a - 1 + k / 12 + 1 / 12 := by
      rw [hs]; push_cast; ring
    have e3 : (t - (a - 1)) / nutStep - k = (t - (a - 1 + k / 12)) / (1 / 12) := by
      rw [hs]; ring
    rw [e1, e2, e3]
    rfl

/-- **C79 (no panic).** A nutation lookup answers for every instant, whatever the window (empty and
reversed windows included). -/
theorem nutation_always_answers (nut : ℝ → ℝ × ℝ × ℝ) (a b t : ℝ) :
    ∃ v, (NutCache.new nut a b).get nut t = .ok v := by
  rcases nut_get nut a b t with ⟨h, -⟩ | ⟨k, -, -, h⟩ <;> exact ⟨_, h⟩

/-- **C79 (coverage).** Inside the window padded by one day the answer is the chord between the two
nodes around the instant; the nodes are two hours apart. -/
theorem nutation_interpolated (nut : ℝ → ℝ × ℝ × ℝ) (a b t : ℝ) (h1 : a - 1 ≤ t) (h2 : t < b + 1) :
    ∃ u, u ≤ t ∧ t < u + 1 / 12 ∧ (NutCache.new nut a b).get nut t = .ok
      (chord (fun x => (nut x).1) u (1 / 12) t, chord (fun x => (nut x).2.1) u (1 / 12) t,
        chord (fun x => (nut x).2.2) u (1 / 12) t) := by
  rcases nut_get nut a b t with ⟨-, h⟩ | ⟨k, k1, k2, k3⟩
  · exact absurd ⟨h1, h2⟩ h
  · exact ⟨_, k1, k2, k3⟩

/-- **C79 (fallback).** Before the padded window, and from two hours after it on, the series itself is
evaluated. -/
theorem nutation_fallback (nut : ℝ → ℝ × ℝ × ℝ) (a b t : ℝ) (hab : a ≤ b)
    (h : t < a - 1 ∨ b + 1 + 1 / 12 ≤ t) : (NutCache.new nut a b).get nut t = .ok (nut t) := by
  have hpos := nutStep_pos
  unfold NutCache.get NutCache.new
  dsimp only
  by_cases h0 : t - (a - 1) < 0
  · rw [if_pos h0]
  · rw [if_neg h0, if_pos]
    have h0' : 0 ≤ (t - (a - 1)) / nutStep := div_nonneg (not_lt.mp h0) hpos.le
    have ht : b + 1 + 1 / 12 ≤ t := by
      rcases h with h | h
      · linarith
      · exact h
    have hs : nutStep = 1 / 12 := by unfold nutStep; norm_num
    refine Nat.add_le_add_right (Nat.le_floor ?_) 1
    have h4 : (⌈(b + 1 - (a - 1)) / nutStep⌉.toNat : ℝ) = (⌈(b + 1 - (a - 1)) / nutStep⌉ : ℝ) := by
      have : 0 ≤ ⌈(b + 1 - (a - 1)) / nutStep⌉ := Int.ceil_nonneg (div_nonneg (by linarith) hpos.le)
      exact_mod_cast Int.toNat_of_nonneg this
    rw [h4]
    have h5 := Int.ceil_lt_add_one ((b + 1 - (a - 1)) / nutStep)
    have h6 : (b + 1 - (a - 1)) / nutStep + 1 ≤ (t - (a - 1)) / nutStep := by
      rw [hs]
      linarith
    linarith

/-- A function with second derivative between `-m` and `m`, written without derivatives. -/
def Curved (m : ℝ) (f : ℝ → ℝ) : Prop :=
  ConvexOn ℝ Set.univ (fun x => m / 2 * x ^ 2 + f x) ∧ ConvexOn ℝ Set.univ (fun x => m / 2 * x ^ 2 - f x)

theorem chord_upper {m : ℝ} {f : ℝ → ℝ} (h : ConvexOn ℝ Set.univ (fun x => m / 2 * x ^ 2 + f x))
    {u w t : ℝ} (hw : 0 < w) (h1 : u ≤ t) (h2 : t ≤ u + w) :
    f t - chord f u w t ≤ m / 2 * ((t - u) * (u + w - t)) := by
  set s := (t - u) / w with hs
  have hsw : s * w = t - u := by rw [hs]; field_simp
  have s0 : 0 ≤ s := div_nonneg (by linarith) hw.le
  have s1 : s ≤ 1 := by rw [hs, div_le_one hw]; linarith
  have := h.2 (Set.mem_univ u) (Set.mem_univ (u + w)) (by linarith : (0 : ℝ) ≤ 1 - s) s0 (by ring)
  simp only [smul_eq_mul] at this
  have ht : (1 - s) * u + s * (u + w) = t := by linarith [hsw]
  rw [ht] at this
  unfold chord
  rw [← hs]
  have e : (1 - s) * u ^ 2 + s * (u + w) ^ 2 = t ^ 2 + (t - u) * (u + w - t) := by
    have ht' : t = u + s * w := by linarith
    rw [ht']
    ring
  have e' : m / 2 * ((1 - s) * u ^ 2 + s * (u + w) ^ 2)
      = m / 2 * (t ^ 2 + (t - u) * (u + w - t)) := by rw [e]
  linarith

/-- **C79 (accuracy).** Linear interpolation between two-hour nodes errs by at most 1/1152 of the
second derivative's bound (per day²). -/
theorem chord_accurate {m : ℝ} {f : ℝ → ℝ} (hm : 0 ≤ m) (hf : Curved m f) {u t : ℝ} (h1 : u ≤ t)
    (h2 : t ≤ u + 1 / 12) : |chord f u (1 / 12) t - f t| ≤ m / 1152 := by
  have hA := chord_upper hf.1 (by norm_num : (0 : ℝ) < 1 / 12) h1 h2
  have hB := chord_upper (f := fun x => - f x) (by simpa [sub_eq_add_neg] using hf.2)
    (by norm_num : (0 : ℝ) < 1 / 12) h1 h2
  have e : chord (fun x => - f x) u (1 / 12) t = - chord f u (1 / 12) t := by
    unfold chord; ring
  rw [e] at hB
  have hq : (t - u) * (u + 1 / 12 - t) ≤ 1 / 576 := by nlinarith [sq_nonneg (t - u - 1 / 24)]
  have hq2 : m / 2 * ((t - u) * (u + 1 / 12 - t)) ≤ m / 1152 := by nlinarith
  rw [abs_le]
  constructor <;> linarith

/-- **C79 (accuracy, whole table).** Every lookup is within 1/1152 of the second derivative's bound of
the series, for every instant and every window. -/
theorem nutation_accurate (nut : ℝ → ℝ × ℝ × ℝ) (m : ℝ) (hm : 0 ≤ m)
    (h1 : Curved m (fun x => (nut x).1)) (h2 : Curved m (fun x => (nut x).2.1))
    (h3 : Curved m (fun x => (nut x).2.2)) (a b t : ℝ) (v : ℝ × ℝ × ℝ)
    (hv : (NutCache.new nut a b).get nut t = .ok v) :
    |v.1 - (nut t).1| ≤ m / 1152 ∧ |v.2.1 - (nut t).2.1| ≤ m / 1152 ∧
      |v.2.2 - (nut t).2.2| ≤ m / 1152 := by
  have h0 : 0 ≤ m / 1152 := by positivity
  rcases nut_get nut a b t with ⟨h, -⟩ | ⟨k, k1, k2, h⟩
  · rw [h] at hv
    cases hv
    simp [h0]
  · rw [h] at hv
    cases hv
    exact ⟨chord_accurate hm h1 k1 k2.le, chord_accurate hm h2 k1 k2.le, chord_accurate hm h3 k1 k2.le⟩

/-! ### Positions -/

/-- **C79 (position).** Every position lookup answers. Inside the padded window it is answered by a
four-day segment containing the instant, evaluated at its place on [−1, 1]. Elsewhere the answer is the
theory itself or such a segment. -/
theorem pos_get (ch : Cheby) (moon : ℝ → V) (a b t : ℝ) :
    ((PosCache.new ch moon a b).get moon t = .ok (moon t) ∧ ¬ (a - 1 ≤ t ∧ t < b + 1)) ∨
    ∃ (s x : ℝ), -1 ≤ x ∧ x < 1 ∧ t = s + 2 + 2 * x ∧
      (PosCache.new ch moon a b).get moon t = .ok
        !₂[ch.evaluate (ch.fit fun k => moon (s + 2 + 2 * ch.nodes k) 0) x,
          ch.evaluate (ch.fit fun k => moon (s + 2 + 2 * ch.nodes k) 1) x,
          ch.evaluate (ch.fit fun k => moon (s + 2 + 2 * ch.nodes k) 2) x] := by
  have hpos : (0 : ℝ) < segmentDays := by unfold segmentDays; norm_num
  unfold PosCache.get PosCache.new
  dsimp only
  by_cases h0 : t - (a - 1) < 0
  · left
    rw [if_pos h0]
    exact ⟨rfl, fun h => by linarith [h.1]⟩
  rw [if_neg h0]
  push Not at h0
  have hf0 : 0 ≤ (t - (a - 1)) / segmentDays := div_nonneg h0 hpos.le
  set n := max ⌈(b + 1 - (a - 1)) / segmentDays⌉.toNat 1 with hn
  by_cases h1 : n ≤ ⌊(t - (a - 1)) / segmentDays⌋₊
  · left
    rw [if_pos h1]
    refine ⟨rfl, fun h => ?_⟩
    have h2 : (t - (a - 1)) / segmentDays < (b + 1 - (a - 1)) / segmentDays :=
      div_lt_div_of_pos_right (by linarith [h.2]) hpos
    have h3 : (n : ℝ) ≤ (t - (a - 1)) / segmentDays := (Nat.le_floor_iff hf0).mp h1
    have h4 : ((⌈(b + 1 - (a - 1)) / segmentDays⌉ : ℤ) : ℝ) ≤ (n : ℝ) := by
      have : ⌈(b + 1 - (a - 1)) / segmentDays⌉ ≤ (n : ℤ) := by
        have := Int.self_le_toNat ⌈(b + 1 - (a - 1)) / segmentDays⌉
        omega
      exact_mod_cast this
    have := Int.le_ceil ((b + 1 - (a - 1)) / segmentDays)
    linarith
  · right
    rw [if_neg h1]
    push Not at h1
    set k := ⌊(t - (a - 1)) / segmentDays⌋₊ with hk
    have k1 : (k : ℝ) ≤ (t - (a - 1)) / segmentDays := Nat.floor_le hf0
    have k2 : (t - (a - 1)) / segmentDays < k + 1 := Nat.lt_floor_add_one _
    rw [le_div_iff₀ hpos] at k1
    rw [div_lt_iff₀ hpos] at k2
    have hs : segmentDays = 4 := rfl
    rw [hs] at k1 k2
    refine ⟨a - 1 + k * 4, (t - (a - 1 + k * 4 + 4 * (1 / 2))) / (4 * (1 / 2)), ?_, ?_, by ring, ?_⟩
    · rw [le_div_iff₀ (by norm_num)]; linarith
    · rw [div_lt_iff₀ (by norm_num)]; linarith
    · have l : ∀ i : Fin 3, k < ((List.range n).map (segmentFit ch (fun t => moon t i) (a - 1))).length := by
        intro i; simpa using h1
      rw [index_ok (l 0), index_ok (l 1), index_ok (l 2)]
      simp only [List.getElem_map, List.getElem_range, segmentFit, hs]
      have e : ∀ y : ℝ, a - 1 + (k : ℝ) * 4 + 4 * (1 / 2) + 4 * (1 / 2) * y
          = a - 1 + k * 4 + 2 + 2 * y := fun y => by ring
      simp only [e]
      rfl

/-- **C79 (no panic).** A position lookup answers for every instant and window. -/
theorem position_always_answers (ch : Cheby) (moon : ℝ → V) (a b t : ℝ) :
    ∃ v, (PosCache.new ch moon a b).get moon t = .ok v := by
  rcases pos_get ch moon a b t with ⟨h, -⟩ | ⟨s, x, -, -, -, h⟩ <;> exact ⟨_, h⟩

/-- The crate approximates `f` within `eps` on every interval of four days. -/
def Fits (ch : Cheby) (f : ℝ → ℝ) (eps : ℝ) : Prop :=
  ∀ s x, -1 ≤ x → x ≤ 1 →
    |ch.evaluate (ch.fit fun k => f (s + 2 + 2 * ch.nodes k)) x - f (s + 2 + 2 * x)| ≤ eps

/-- **C79 (accuracy).** If nine-node interpolation over four days reproduces each coordinate within
`eps`, every position lookup is within `2 eps` of the theory. -/
theorem position_accurate (ch : Cheby) (moon : ℝ → V) (eps : ℝ) (he : 0 ≤ eps)
    (hfit : ∀ i, Fits ch (fun t => moon t i) eps) (a b t : ℝ) (v : V)
    (hv : (PosCache.new ch moon a b).get moon t = .ok v) : ‖v - moon t‖ ≤ 2 * eps := by
  rcases pos_get ch moon a b t with ⟨h, -⟩ | ⟨s, x, x1, x2, hx, h⟩
  · rw [h] at hv
    cases hv
    simpa using he
  · rw [h] at hv
    cases hv
    rw [EuclideanSpace.norm_eq, Real.sqrt_le_left (by positivity), Fin.sum_univ_three]
    have b0 := hfit 0 s x x1 x2.le
    have b1 := hfit 1 s x x1 x2.le
    have b2 := hfit 2 s x x1 x2.le
    simp only [← hx] at b0 b1 b2
    simp only [PiLp.sub_apply, Real.norm_eq_abs]
    simp only [Matrix.cons_val_zero, Matrix.cons_val_one, Matrix.cons_val]
    have q := fun (y : ℝ) (hy : |y| ≤ eps) => pow_le_pow_left₀ (abs_nonneg y) hy 2
    have := q _ b0
    have := q _ b1
    have := q _ b2
    nlinarith [sq_nonneg eps]

end Verif.Moon
