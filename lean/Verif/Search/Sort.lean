import Mathlib.Tactic.Linarith
import Mathlib.Tactic.Positivity
import Mathlib.Algebra.Order.Group.Unbundled.Abs
import Verif.Event.Scan3

/-! Facts about `sort_dedup_crossings` over any ordered field. -/
namespace Verif.Search
open Verif.Event

variable {F : Type} [Field F] [LinearOrder F] [IsStrictOrderedRing F]

theorem dedupeEps_pos : (0 : F) < dedupeEps := by unfold dedupeEps; positivity

theorem dedupFrom_sep (x : LabeledCrossing F) (l : List (LabeledCrossing F))
    (h : (x :: l).Pairwise (fun u v => u.t ≤ v.t)) :
    (x :: dedupFrom (fun a b => decide (|a.t - b.t| < dedupeEps)) x l).Pairwise
      (fun u v => dedupeEps ≤ v.t - u.t) := by
  have hpos := dedupeEps_pos (F := F)
  induction l generalizing x with
  | nil => simp [dedupFrom]
  | cons y ys ih =>
    rw [List.pairwise_cons, List.pairwise_cons] at h
    have hxy := h.1 y (by simp)
    simp only [dedupFrom]
    split
    · exact ih x (by rw [List.pairwise_cons]; exact ⟨fun z hz => h.1 z (by simp [hz]), h.2.2⟩)
    · rename_i hd
      rw [decide_eq_true_iff, not_lt, abs_of_nonneg (by linarith)] at hd
      have hy := ih y (by rw [List.pairwise_cons]; exact h.2)
      rw [List.pairwise_cons]
      refine ⟨?_, hy⟩
      intro z hz
      rcases List.mem_cons.mp hz with rfl | hz
      · exact hd
      · have := (List.pairwise_cons.mp hy).1 z hz
        linarith

theorem sorted_mergeSort (l : List (LabeledCrossing F)) :
    (l.mergeSort (fun a b => decide (a.t ≤ b.t))).Pairwise (fun u v => u.t ≤ v.t) := by
  have := List.pairwise_mergeSort (le := fun a b : LabeledCrossing F => decide (a.t ≤ b.t))
    (fun a b c h1 h2 => by simp at *; linarith)
    (fun a b => by simp; exact le_total _ _) l
  exact this.imp (fun h => by simpa using h)

/-- The result is strictly increasing in time, with steps of at least 10⁻⁸ days. -/
theorem sortAndDedup_sep (l : List (LabeledCrossing F)) :
    (sortAndDedup l).Pairwise (fun u v => dedupeEps ≤ v.t - u.t) := by
  unfold sortAndDedup
  have hs := sorted_mergeSort l
  cases hm : l.mergeSort (fun a b => decide (a.t ≤ b.t)) with
  | nil => simp [dedupBy]
  | cons x xs =>
    rw [hm] at hs
    exact dedupFrom_sep x xs hs

omit [IsStrictOrderedRing F] in
theorem sortAndDedup_subset (l : List (LabeledCrossing F)) (x) (h : x ∈ sortAndDedup l) : x ∈ l := by
  unfold sortAndDedup at h
  exact List.mem_mergeSort.mp ((dedupBy_sub _ _).subset h)

theorem dedupFrom_near (x : LabeledCrossing F) (l : List (LabeledCrossing F)) :
    ∀ y ∈ l, ∃ z ∈ x :: dedupFrom (fun a b => decide (|a.t - b.t| < dedupeEps)) x l,
      |y.t - z.t| < dedupeEps := by
  have hpos := dedupeEps_pos (F := F)
  induction l generalizing x with
  | nil => simp
  | cons w ws ih =>
    intro y hy
    simp only [dedupFrom]
    split
    · rename_i hd
      rcases List.mem_cons.mp hy with rfl | hy
      · exact ⟨x, by simp, by simpa using hd⟩
      · exact ih x y hy
    · rcases List.mem_cons.mp hy with rfl | hy
      · exact ⟨y, by simp, by simpa using hpos⟩
      · obtain ⟨z, hz, h⟩ := ih w y hy
        exact ⟨z, List.mem_cons_of_mem _ hz, h⟩

/-- An entry disappears only beside a kept one less than 10⁻⁸ days away. -/
theorem sortAndDedup_near (l : List (LabeledCrossing F)) (y) (hy : y ∈ l) :
    ∃ z ∈ sortAndDedup l, |y.t - z.t| < dedupeEps := by
  have hpos := dedupeEps_pos (F := F)
  have hy' : y ∈ l.mergeSort (fun a b => decide (a.t ≤ b.t)) := List.mem_mergeSort.mpr hy
  unfold sortAndDedup
  cases hm : l.mergeSort (fun a b => decide (a.t ≤ b.t)) with
  | nil => rw [hm] at hy'; simp at hy'
  | cons x xs =>
    rw [hm] at hy'
    rcases List.mem_cons.mp hy' with rfl | hy'
    · exact ⟨y, by simp [dedupBy], by simpa using hpos⟩
    · exact dedupFrom_near x xs y hy'

end Verif.Search
