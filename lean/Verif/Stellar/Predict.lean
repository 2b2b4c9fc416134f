import Verif.Stellar.Model
import Verif.Stellar.Spec
import Mathlib.Tactic.Linarith
import Mathlib.Tactic.FieldSimp
import Mathlib.Tactic.Positivity
import Mathlib.Data.Real.Archimedean
import Mathlib.Data.List.Sort

/-! Lemmas about the predicted crossing times. -/
namespace Verif.Stellar

open Spec

theorem edgeEps_pos : 0 < edgeEps := by unfold edgeEps; positivity

theorem clamp_eq {start stop t : ℝ} (h : start ≤ t) : clampTime start stop t = min t stop := by
  unfold clampTime
  split
  · rename_i h1; rw [min_eq_right h1]
  · rename_i h1
    rw [min_eq_left (by linarith)]
    split
    · linarith
    · rfl

theorem norm360_range (x : ℝ) : 0 ≤ norm360 x ∧ norm360 x < 360 := by
  unfold norm360
  have h1 := Int.floor_le (x / 360)
  have h2 := Int.lt_floor_add_one (x / 360)
  constructor <;> linarith

theorem firstOffset_range {sid : ℝ} (h : 0 < sid) (ha target : ℝ) :
    0 ≤ firstOffset sid ha target ∧ firstOffset sid ha target < sid := by
  obtain ⟨h1, h2⟩ := norm360_range (target - ha)
  unfold firstOffset
  constructor
  · positivity
  · have : norm360 (target - ha) / 360 < 1 := by linarith
    nlinarith

/-- The loop lists exactly the occurrences not after the end of the window. -/
theorem occurrences_mem {sid start stop : ℝ} (hs : 0 < sid) (n : Nat) :
    ∀ (dt : ℝ) (l : List ℝ), 0 ≤ dt → occurrences sid start stop n dt = some l → ∀ t,
      (t ∈ l ↔ ∃ j : ℕ, start + dt + j * sid ≤ stop + edgeEps ∧ t = min (start + dt + j * sid) stop) := by
  induction n with
  | zero => intro dt l _ h; cases h
  | succ n ih =>
    intro dt l hdt h t
    rw [occurrences] at h
    split at h
    · rename_i hle
      obtain ⟨l', hl', rfl⟩ := Option.map_eq_some_iff.mp h
      rw [List.mem_cons, ih _ _ (by linarith) hl', clamp_eq (by linarith)]
      constructor
      · rintro (rfl | ⟨j, h1, h2⟩)
        · exact ⟨0, by simpa using hle, by simp⟩
        · refine ⟨j + 1, ?_, ?_⟩
          · push_cast; linarith
          · rw [h2]; push_cast; congr 1; ring
      · rintro ⟨j, h1, h2⟩
        cases j with
        | zero => left; simpa using h2
        | succ j =>
          right
          refine ⟨j, ?_, ?_⟩
          · push_cast at h1; linarith
          · rw [h2]; push_cast; congr 1; ring
    · rename_i hgt
      cases h
      simp only [List.not_mem_nil, false_iff, not_exists, not_and]
      intro j h1
      have : (0 : ℝ) ≤ j * sid := by positivity
      linarith

/-- Occurrences are listed in strictly increasing order. -/
theorem occurrences_sorted {sid start stop : ℝ} (hs : edgeEps < sid) (n : Nat) :
    ∀ (dt : ℝ) (l : List ℝ), 0 ≤ dt → occurrences sid start stop n dt = some l → l.Pairwise (· < ·) := by
  have he := edgeEps_pos
  induction n with
  | zero => intro dt l _ h; cases h
  | succ n ih =>
    intro dt l hdt h
    rw [occurrences] at h
    split at h
    · rename_i hle
      obtain ⟨l', hl', rfl⟩ := Option.map_eq_some_iff.mp h
      refine List.pairwise_cons.mpr ⟨?_, ih _ _ (by linarith) hl'⟩
      intro t ht
      obtain ⟨j, h1, rfl⟩ := (occurrences_mem (by linarith) n _ _ (by linarith) hl' t).mp ht
      have hj : (0 : ℝ) ≤ j * sid := by
        have : 0 < sid := by linarith
        positivity
      rw [clamp_eq (by linarith)]
      refine lt_of_le_of_lt (min_le_left _ _) (lt_min (by linarith) (by linarith))
    · cases h
      exact List.Pairwise.nil

/-- The loop ends. -/
theorem occurrences_ends {sid start stop : ℝ} (hs : 0 < sid) (dt : ℝ) :
    ∃ n₀, ∀ n ≥ n₀, ∃ l, occurrences sid start stop n dt = some l := by
  obtain ⟨m, hm⟩ := exists_nat_gt ((stop + edgeEps - start - dt) / sid)
  rw [div_lt_iff₀ hs] at hm
  refine ⟨m + 1, ?_⟩
  clear * - hm
  induction m generalizing dt with
  | zero =>
    intro n hn
    obtain ⟨n, rfl⟩ : ∃ k, n = k + 1 := ⟨n - 1, by omega⟩
    refine ⟨[], ?_⟩
    rw [occurrences, if_neg]
    push_cast at hm
    linarith
  | succ m ih =>
    intro n hn
    obtain ⟨n, rfl⟩ : ∃ k, n = k + 1 := ⟨n - 1, by omega⟩
    rw [occurrences]
    split
    · obtain ⟨l, hl⟩ := ih (dt + sid) (by push_cast at hm; linarith) n (by omega)
      exact ⟨_, by rw [hl]; rfl⟩
    · exact ⟨[], rfl⟩

/-- The occurrences of a target are the instants at which the turning hour angle takes its value. -/
theorem occurrence_iff {sid start : ℝ} (hs : 0 < sid) (ha target t : ℝ) :
    (∃ j : ℕ, t = start + firstOffset sid ha target + j * sid) ↔
      start ≤ t ∧ SameAngle (turning ha start sid t) target := by
  obtain ⟨h0, h1⟩ := firstOffset_range hs ha target
  have hoff : firstOffset sid ha target = sid * ((target - ha) / 360 - ⌊(target - ha) / 360⌋) := by
    unfold firstOffset norm360; ring
  constructor
  · rintro ⟨j, rfl⟩
    have hj : (0 : ℝ) ≤ j * sid := by positivity
    refine ⟨by linarith, (j : ℤ) - ⌊(target - ha) / 360⌋, ?_⟩
    unfold turning
    rw [hoff]
    push_cast
    field_simp
    ring
  · rintro ⟨hst, k, hk⟩
    unfold turning at hk
    have ht : t = start + sid * ((target - ha) / 360 + k) := by
      field_simp at hk ⊢
      linarith
    have hd : t = start + firstOffset sid ha target + (k + ⌊(target - ha) / 360⌋ : ℤ) * sid := by
      rw [hoff, ht]; push_cast; ring
    have hm : 0 ≤ k + ⌊(target - ha) / 360⌋ := by
      by_contra hneg
      have h2 : ((k + ⌊(target - ha) / 360⌋ : ℤ) : ℝ) ≤ -1 := by exact_mod_cast (by omega : k + ⌊(target - ha) / 360⌋ ≤ -1)
      nlinarith
    obtain ⟨m, hm⟩ := Int.eq_ofNat_of_zero_le hm
    refine ⟨m, ?_⟩
    rw [hd, hm]
    simp

theorem occurrences_exact {sid start stop : ℝ} (hs : 0 < sid) {n : Nat} {ha target : ℝ} {l : List ℝ}
    (h : occurrences sid start stop n (firstOffset sid ha target) = some l) (t : ℝ) :
    t ∈ l ↔ ∃ t', start ≤ t' ∧ t' ≤ stop + edgeEps ∧ t = min t' stop ∧
      SameAngle (turning ha start sid t') target := by
  rw [occurrences_mem hs n _ l (firstOffset_range hs ha target).1 h t]
  constructor
  · rintro ⟨j, h1, h2⟩
    obtain ⟨h3, h4⟩ := (occurrence_iff hs ha target _).mp ⟨j, rfl⟩
    exact ⟨_, h3, h1, h2, h4⟩
  · rintro ⟨t', h1, h2, h3, h4⟩
    obtain ⟨j, hj⟩ := (occurrence_iff hs ha target t').mpr ⟨h1, h4⟩
    exact ⟨j, by rw [← hj]; exact h2, by rw [← hj]; exact h3⟩

end Verif.Stellar
