import Verif.Elp.Spec
import Mathlib.Tactic.LinearCombination
import Mathlib.Tactic.IntervalCases

/-! # The lunar theory sums its series; Pluto's series -/

namespace Verif.Elp.Props
open Verif.Elp Spec

/-- The lanes are within `ε` of the sine. -/
def Close (wide : ℝ → ℝ) (ε : ℝ) : Prop := ∀ x, |wide x - Real.sin x| ≤ ε

section Batch
variable {α : Type} (coef arg : α → ℝ)

theorem leftover_eq (skip : Bool) : ∀ (l : List α) (s : ℝ),
    leftover skip coef arg l s = s + (l.map fun e => coef e * Real.sin (arg e)).sum
  | [], s => by simp [leftover]
  | e :: es, s => by
    rw [leftover]
    split
    · rename_i h
      rw [leftover_eq skip es, List.map_cons, List.sum_cons, h.2]
      ring
    · rw [leftover_eq skip es, List.map_cons, List.sum_cons]
      ring

theorem batched_close {wide : ℝ → ℝ} {ε : ℝ} (hw : Close wide ε) (skip : Bool) : ∀ (n : ℕ) (l : List α), l.length ≤ n → ∀ s : ℝ,
    |batched wide skip coef arg l s - (s + (l.map fun e => coef e * Real.sin (arg e)).sum)| ≤ ε * (l.map fun e => |coef e|).sum := by
  have hε : 0 ≤ ε := le_trans (abs_nonneg _) (hw 0)
  have hn : ∀ l : List α, 0 ≤ (l.map fun e => |coef e|).sum := fun l =>
    List.sum_nonneg fun x hx => by
      obtain ⟨e, _, rfl⟩ := List.mem_map.1 hx
      exact abs_nonneg _
  have one : ∀ e : α, |coef e * wide (arg e) - coef e * Real.sin (arg e)| ≤ ε * |coef e| := by
    intro e
    rw [← mul_sub, abs_mul, mul_comm]
    exact mul_le_mul_of_nonneg_right (hw _) (abs_nonneg _)
  intro n
  induction n with
  | zero =>
    intro l hl s
    obtain rfl : l = [] := List.length_eq_zero_iff.1 (by omega)
    simp [batched, leftover]
  | succ n ih =>
    intro l hl s
    match l, hl with
    | e0 :: e1 :: e2 :: e3 :: es, hl =>
      rw [batched]
      have h := ih es (by simp only [List.length_cons] at hl; omega) (s + (coef e0 * wide (arg e0) + coef e1 * wide (arg e1) +
        coef e2 * wide (arg e2) + coef e3 * wide (arg e3)))
      simp only [List.map_cons, List.sum_cons]
      have h0 := one e0
      have h1 := one e1
      have h2 := one e2
      have h3 := one e3
      rw [abs_le] at h h0 h1 h2 h3 ⊢
      constructor <;> linarith [h.1, h.2, h0.1, h0.2, h1.1, h1.2, h2.1, h2.2, h3.1, h3.2]
    | [], _ => simp [batched, leftover]
    | [e0], _ =>
      rw [batched, leftover_eq, sub_self, abs_zero]
      · exact mul_nonneg hε (hn _)
      · intros; simp_all
    | [e0, e1], _ =>
      rw [batched, leftover_eq, sub_self, abs_zero]
      · exact mul_nonneg hε (hn _)
      · intros; simp_all
    | [e0, e1, e2], _ =>
      rw [batched, leftover_eq, sub_self, abs_zero]
      · exact mul_nonneg hε (hn _)
      · intros; simp_all

end Batch

theorem powers_eq (t : ℝ) : powers t 1 = t ∧ powers t 2 = t ^ 2 ∧ powers t 3 = t ^ 3 ∧ powers t 4 = t ^ 4 := by
  refine ⟨rfl, ?_, ?_, ?_⟩
  · show t * t = _; ring
  · show t * t * t = _; ring
  · show t * t * (t * t) = _; ring

theorem full_eq (k : Const) (t : ℝ) (i : Fin 4) : (fromT k (powers t)).delFull i = poly (k.del i) t := by
  obtain ⟨h1, h2, h3, h4⟩ := powers_eq t
  simp only [fromT, h1, h2, h3, h4, poly, Fin.sum_univ_five]
  simp

theorem lin_eq (k : Const) (t : ℝ) (i : Fin 4) : (fromT k (powers t)).delLin i = secular (k.del i) t := rfl

theorem main_close {wide : ℝ → ℝ} {ε : ℝ} (hw : Close wide ε) (k : Const) (t : ℝ) (n : ℕ) (off : ℝ) (ho : off = if n = 3 then Real.pi / 2 else 0)
    (l : List Main) : |sumMain wide k (fromT k (powers t)) off l - (l.map (mainTerm k t n)).sum| ≤ ε * (l.map fun e => |mainAmp k e|).sum := by
  have h := batched_close (mainCoef k) (mainArg (fromT k (powers t)) off) hw false _ l le_rfl 0
  rw [zero_add] at h
  have e : (l.map fun e => mainCoef k e * Real.sin (mainArg (fromT k (powers t)) off e)) = l.map (mainTerm k t n) := by
    refine List.map_congr_left fun x _ => ?_
    have ha : mainArg (fromT k (powers t)) off x = (∑ i : Fin 4, (x.ilu i : ℝ) * poly (k.del i) t) + off := by
      unfold mainArg
      rw [full_eq, full_eq, full_eq, full_eq, Fin.sum_univ_four]
      ring
    unfold mainTerm
    rw [ha, ho]
    simp only
    split
    · rw [Real.sin_add_pi_div_two]; rfl
    · rw [add_zero]; rfl
  rw [e] at h
  exact h

theorem earth_close {wide : ℝ → ℝ} {ε : ℝ} (hw : Close wide ε) (k : Const) (t : ℝ) (n : ℕ) (scale : Option (Fin 5))
    (hs : ∀ e : EarthT, earthCoef (fromT k (powers t)) scale e = e.a * t ^ power n) (l : List EarthT) :
    |sumEarth wide (fromT k (powers t)) scale l - (l.map (earthTerm k t n)).sum| ≤ ε * (l.map fun e => |e.a * t ^ power n|).sum := by
  have h := batched_close (earthCoef (fromT k (powers t)) scale) (earthArg (fromT k (powers t))) hw true _ l le_rfl 0
  rw [zero_add] at h
  have e : (l.map fun e => earthCoef (fromT k (powers t)) scale e * Real.sin (earthArg (fromT k (powers t)) e)) = l.map (earthTerm k t n) := by
    refine List.map_congr_left fun x _ => ?_
    rw [hs]
    unfold earthTerm
    congr 2
    unfold earthArg toRadians
    rw [lin_eq, lin_eq, lin_eq, lin_eq, Fin.sum_univ_four]
    have : (fromT k (powers t)).zetaLin = k.zeta 0 + k.zeta 1 * t := rfl
    rw [this]
    ring
  have e2 : (l.map fun e => |earthCoef (fromT k (powers t)) scale e|) = l.map fun e => |e.a * t ^ power n| :=
    List.map_congr_left fun x _ => by rw [hs]
  rw [e, e2] at h
  exact h

theorem planet_close {wide : ℝ → ℝ} {ε : ℝ} (hw : Close wide ε) (k : Const) (t : ℝ) (n : ℕ) (scale alt : Bool) (ha : alt = decide (15 < n))
    (hs : ∀ e : Planet, planetCoef (fromT k (powers t)) scale e = e.o * t ^ power n) (l : List Planet) :
    |sumPlanet wide (fromT k (powers t)) scale alt l - (l.map (planetTerm k t n)).sum| ≤ ε * (l.map fun e => |e.o * t ^ power n|).sum := by
  have h := batched_close (planetCoef (fromT k (powers t)) scale) (planetArg (fromT k (powers t)) alt) hw true _ l le_rfl 0
  rw [zero_add] at h
  have e : (l.map fun e => planetCoef (fromT k (powers t)) scale e * Real.sin (planetArg (fromT k (powers t)) alt e)) = l.map (planetTerm k t n) := by
    refine List.map_congr_left fun x _ => ?_
    rw [hs]
    unfold planetTerm
    congr 2
    have hp : ∀ i, (fromT k (powers t)).pLin i = k.pArgs i 0 + k.pArgs i 1 * t := fun _ => rfl
    unfold planetArg toRadians
    simp only [lin_eq, hp]
    by_cases hn : 15 < n
    · rw [if_pos (by rw [ha]; simpa using hn), if_neg (by omega), Fin.sum_univ_seven, Fin.sum_univ_four]
      change _ = x.theta / 180 * Real.pi + (((x.ipla 0 : ℝ) * (k.pArgs 0 0 + k.pArgs 0 1 * t) + (x.ipla 1 : ℝ) * (k.pArgs 1 0 + k.pArgs 1 1 * t) + (x.ipla 2 : ℝ) * (k.pArgs 2 0 + k.pArgs 2 1 * t) + (x.ipla 3 : ℝ) * (k.pArgs 3 0 + k.pArgs 3 1 * t) + (x.ipla 4 : ℝ) * (k.pArgs 4 0 + k.pArgs 4 1 * t) + (x.ipla 5 : ℝ) * (k.pArgs 5 0 + k.pArgs 5 1 * t) + (x.ipla 6 : ℝ) * (k.pArgs 6 0 + k.pArgs 6 1 * t)) + ((x.ipla 7 : ℝ) * secular (k.del 0) t + (x.ipla 8 : ℝ) * secular (k.del 1) t + (x.ipla 9 : ℝ) * secular (k.del 2) t + (x.ipla 10 : ℝ) * secular (k.del 3) t))
      ring
    · rw [if_neg (by rw [ha]; simpa using hn), if_pos (by omega), Fin.sum_univ_eight]
      change _ = x.theta / 180 * Real.pi + (((x.ipla 0 : ℝ) * (k.pArgs 0 0 + k.pArgs 0 1 * t) + (x.ipla 1 : ℝ) * (k.pArgs 1 0 + k.pArgs 1 1 * t) + (x.ipla 2 : ℝ) * (k.pArgs 2 0 + k.pArgs 2 1 * t) + (x.ipla 3 : ℝ) * (k.pArgs 3 0 + k.pArgs 3 1 * t) + (x.ipla 4 : ℝ) * (k.pArgs 4 0 + k.pArgs 4 1 * t) + (x.ipla 5 : ℝ) * (k.pArgs 5 0 + k.pArgs 5 1 * t) + (x.ipla 6 : ℝ) * (k.pArgs 6 0 + k.pArgs 6 1 * t) + (x.ipla 7 : ℝ) * (k.pArgs 7 0 + k.pArgs 7 1 * t)) + ((x.ipla 8 : ℝ) * secular (k.del 0) t + (x.ipla 9 : ℝ) * secular (k.del 2) t + (x.ipla 10 : ℝ) * secular (k.del 3) t))
      ring
  have e2 : (l.map fun e => |planetCoef (fromT k (powers t)) scale e|) = l.map fun e => |e.o * t ^ power n| :=
    List.map_congr_left fun x _ => by rw [hs]
  rw [e, e2] at h
  exact h

/-- **C207** Every one of the 36 series is the published one, to within the accuracy of the four-lane sine. -/
theorem series_close {wide : ℝ → ℝ} {ε : ℝ} (hw : Close wide ε) (k : Const) (d : Tables) (t : ℝ) {n : ℕ} (h1 : 1 ≤ n) (h2 : n ≤ 36) :
    |value wide k d (fromT k (powers t)) n - series k d t n| ≤ ε * amplitudes k d t n := by
  have p2 : (fromT k (powers t)).t 2 = t ^ 2 := (powers_eq t).2.1
  have p1 : (fromT k (powers t)).t 1 = t := rfl
  have sm : ∀ m, m ≤ 3 → series k d t m = ((d.main m).map (mainTerm k t m)).sum ∧
      amplitudes k d t m = ((d.main m).map fun e => |mainAmp k e|).sum := fun m hm => by
    unfold series amplitudes
    rw [if_pos hm, if_pos hm]
    exact ⟨rfl, rfl⟩
  have sp : ∀ m, 10 ≤ m → m ≤ 21 → series k d t m = ((d.planet m).map (planetTerm k t m)).sum ∧
      amplitudes k d t m = ((d.planet m).map fun e => |e.o * t ^ power m|).sum := fun m h1 h2 => by
    unfold series amplitudes
    rw [if_neg (by omega), if_pos ⟨h1, h2⟩, if_neg (by omega), if_pos ⟨h1, h2⟩]
    exact ⟨rfl, rfl⟩
  have se : ∀ m, 3 < m → (m < 10 ∨ 21 < m) → series k d t m = ((d.earth m).map (earthTerm k t m)).sum ∧
      amplitudes k d t m = ((d.earth m).map fun e => |e.a * t ^ power m|).sum := fun m h1 h2 => by
    unfold series amplitudes
    rw [if_neg (by omega), if_neg (by omega), if_neg (by omega), if_neg (by omega)]
    exact ⟨rfl, rfl⟩
  interval_cases n
  · rw [(sm 1 (by norm_num)).1, (sm 1 (by norm_num)).2]
    exact main_close hw k t 1 _ (by simp) _
  · rw [(sm 2 (by norm_num)).1, (sm 2 (by norm_num)).2]
    exact main_close hw k t 2 _ (by simp) _
  · rw [(sm 3 (by norm_num)).1, (sm 3 (by norm_num)).2]
    exact main_close hw k t 3 _ (by simp) _
  · rw [(se 4 (by norm_num) (by norm_num)).1, (se 4 (by norm_num) (by norm_num)).2]
    exact earth_close hw k t 4 none (fun e => by simp [earthCoef, power, p1, p2]) _
  · rw [(se 5 (by norm_num) (by norm_num)).1, (se 5 (by norm_num) (by norm_num)).2]
    exact earth_close hw k t 5 none (fun e => by simp [earthCoef, power, p1, p2]) _
  · rw [(se 6 (by norm_num) (by norm_num)).1, (se 6 (by norm_num) (by norm_num)).2]
    exact earth_close hw k t 6 none (fun e => by simp [earthCoef, power, p1, p2]) _
  · rw [(se 7 (by norm_num) (by norm_num)).1, (se 7 (by norm_num) (by norm_num)).2]
    exact earth_close hw k t 7 (some 1) (fun e => by simp [earthCoef, power, p1, p2]) _
  · rw [(se 8 (by norm_num) (by norm_num)).1, (se 8 (by norm_num) (by norm_num)).2]
    exact earth_close hw k t 8 (some 1) (fun e => by simp [earthCoef, power, p1, p2]) _
  · rw [(se 9 (by norm_num) (by norm_num)).1, (se 9 (by norm_num) (by norm_num)).2]
    exact earth_close hw k t 9 (some 1) (fun e => by simp [earthCoef, power, p1, p2]) _
  · rw [(sp 10 (by norm_num) (by norm_num)).1, (sp 10 (by norm_num) (by norm_num)).2]
    exact planet_close hw k t 10 false false (by decide) (fun e => by simp [planetCoef, power, p1]) _
  · rw [(sp 11 (by norm_num) (by norm_num)).1, (sp 11 (by norm_num) (by norm_num)).2]
    exact planet_close hw k t 11 false false (by decide) (fun e => by simp [planetCoef, power, p1]) _
  · rw [(sp 12 (by norm_num) (by norm_num)).1, (sp 12 (by norm_num) (by norm_num)).2]
    exact planet_close hw k t 12 false false (by decide) (fun e => by simp [planetCoef, power, p1]) _
  · rw [(sp 13 (by norm_num) (by norm_num)).1, (sp 13 (by norm_num) (by norm_num)).2]
    exact planet_close hw k t 13 true false (by decide) (fun e => by simp [planetCoef, power, p1]) _
  · rw [(sp 14 (by norm_num) (by norm_num)).1, (sp 14 (by norm_num) (by norm_num)).2]
    exact planet_close hw k t 14 true false (by decide) (fun e => by simp [planetCoef, power, p1]) _
  · rw [(sp 15 (by norm_num) (by norm_num)).1, (sp 15 (by norm_num) (by norm_num)).2]
    exact planet_close hw k t 15 true false (by decide) (fun e => by simp [planetCoef, power, p1]) _
  · rw [(sp 16 (by norm_num) (by norm_num)).1, (sp 16 (by norm_num) (by norm_num)).2]
    exact planet_close hw k t 16 false true (by decide) (fun e => by simp [planetCoef, power, p1]) _
  · rw [(sp 17 (by norm_num) (by norm_num)).1, (sp 17 (by norm_num) (by norm_num)).2]
    exact planet_close hw k t 17 false true (by decide) (fun e => by simp [planetCoef, power, p1]) _
  · rw [(sp 18 (by norm_num) (by norm_num)).1, (sp 18 (by norm_num) (by norm_num)).2]
    exact planet_close hw k t 18 false true (by decide) (fun e => by simp [planetCoef, power, p1]) _
  · rw [(sp 19 (by norm_num) (by norm_num)).1, (sp 19 (by norm_num) (by norm_num)).2]
    exact planet_close hw k t 19 true true (by decide) (fun e => by simp [planetCoef, power, p1]) _
  · rw [(sp 20 (by norm_num) (by norm_num)).1, (sp 20 (by norm_num) (by norm_num)).2]
    exact planet_close hw k t 20 true true (by decide) (fun e => by simp [planetCoef, power, p1]) _
  · rw [(sp 21 (by norm_num) (by norm_num)).1, (sp 21 (by norm_num) (by norm_num)).2]
    exact planet_close hw k t 21 true true (by decide) (fun e => by simp [planetCoef, power, p1]) _
  · rw [(se 22 (by norm_num) (by norm_num)).1, (se 22 (by norm_num) (by norm_num)).2]
    exact earth_close hw k t 22 none (fun e => by simp [earthCoef, power, p1, p2]) _
  · rw [(se 23 (by norm_num) (by norm_num)).1, (se 23 (by norm_num) (by norm_num)).2]
    exact earth_close hw k t 23 none (fun e => by simp [earthCoef, power, p1, p2]) _
  · rw [(se 24 (by norm_num) (by norm_num)).1, (se 24 (by norm_num) (by norm_num)).2]
    exact earth_close hw k t 24 none (fun e => by simp [earthCoef, power, p1, p2]) _
  · rw [(se 25 (by norm_num) (by norm_num)).1, (se 25 (by norm_num) (by norm_num)).2]
    exact earth_close hw k t 25 (some 1) (fun e => by simp [earthCoef, power, p1, p2]) _
  · rw [(se 26 (by norm_num) (by norm_num)).1, (se 26 (by norm_num) (by norm_num)).2]
    exact earth_close hw k t 26 (some 1) (fun e => by simp [earthCoef, power, p1, p2]) _
  · rw [(se 27 (by norm_num) (by norm_num)).1, (se 27 (by norm_num) (by norm_num)).2]
    exact earth_close hw k t 27 (some 1) (fun e => by simp [earthCoef, power, p1, p2]) _
  · rw [(se 28 (by norm_num) (by norm_num)).1, (se 28 (by norm_num) (by norm_num)).2]
    exact earth_close hw k t 28 none (fun e => by simp [earthCoef, power, p1, p2]) _
  · rw [(se 29 (by norm_num) (by norm_num)).1, (se 29 (by norm_num) (by norm_num)).2]
    exact earth_close hw k t 29 none (fun e => by simp [earthCoef, power, p1, p2]) _
  · rw [(se 30 (by norm_num) (by norm_num)).1, (se 30 (by norm_num) (by norm_num)).2]
    exact earth_close hw k t 30 none (fun e => by simp [earthCoef, power, p1, p2]) _
  · rw [(se 31 (by norm_num) (by norm_num)).1, (se 31 (by norm_num) (by norm_num)).2]
    exact earth_close hw k t 31 none (fun e => by simp [earthCoef, power, p1, p2]) _
  · rw [(se 32 (by norm_num) (by norm_num)).1, (se 32 (by norm_num) (by norm_num)).2]
    exact earth_close hw k t 32 none (fun e => by simp [earthCoef, power, p1, p2]) _
  · rw [(se 33 (by norm_num) (by norm_num)).1, (se 33 (by norm_num) (by norm_num)).2]
    exact earth_close hw k t 33 none (fun e => by simp [earthCoef, power, p1, p2]) _
  · rw [(se 34 (by norm_num) (by norm_num)).1, (se 34 (by norm_num) (by norm_num)).2]
    exact earth_close hw k t 34 (some 2) (fun e => by simp [earthCoef, power, p1, p2]) _
  · rw [(se 35 (by norm_num) (by norm_num)).1, (se 35 (by norm_num) (by norm_num)).2]
    exact earth_close hw k t 35 (some 2) (fun e => by simp [earthCoef, power, p1, p2]) _
  · rw [(se 36 (by norm_num) (by norm_num)).1, (se 36 (by norm_num) (by norm_num)).2]
    exact earth_close hw k t 36 (some 2) (fun e => by simp [earthCoef, power, p1, p2]) _

/-- With the sine itself the series are exact. -/
theorem series_exact (k : Const) (d : Tables) (t : ℝ) {n : ℕ} (h1 : 1 ≤ n) (h2 : n ≤ 36) :
    value Real.sin k d (fromT k (powers t)) n = series k d t n := by
  have := series_close (wide := Real.sin) (ε := 0) (fun x => by simp) k d t h1 h2
  rw [zero_mul] at this
  exact sub_eq_zero.1 (abs_eq_zero.1 (le_antisymm this (abs_nonneg _)))

/-- A table of five terms, four in the lanes and one left over: lanes wrong by `1/1000` cost at most the sum of the
amplitudes over a thousand. -/
example (wide : ℝ → ℝ) (hw : Close wide (1 / 1000)) (k : Const) (d : Tables) (t : ℝ)
    (hd : d.earth 34 = [⟨1, 0, 0, fun _ => 1⟩, ⟨-2, 90, 1, fun _ => 2⟩, ⟨0, 0, 0, fun _ => 0⟩, ⟨3, 180, 0, fun _ => -1⟩, ⟨5, 0, 2, fun _ => 0⟩]) :
    |value wide k d (fromT k (powers t)) 34 - series k d t 34| ≤ 11 * t ^ 2 / 1000 := by
  refine (series_close hw k d t (n := 34) (by norm_num) (by norm_num)).trans (le_of_eq ?_)
  unfold amplitudes
  rw [hd]
  simp [power, abs_mul]
  ring

/-- The three coordinates collect every third series, within the accuracy of the lanes. -/
theorem sums_close {wide : ℝ → ℝ} {ε : ℝ} (hw : Close wide ε) (k : Const) (d : Tables) (t : ℝ) :
    |(sums wide k d (fromT k (powers t))).1 - coordinate k d t 0| ≤ ε * ∑ j ∈ Finset.range 12, amplitudes k d t (3 * j + 1) ∧
    |(sums wide k d (fromT k (powers t))).2.1 - coordinate k d t 1| ≤ ε * ∑ j ∈ Finset.range 12, amplitudes k d t (3 * j + 2) ∧
    |(sums wide k d (fromT k (powers t))).2.2 - coordinate k d t 2| ≤ ε * ∑ j ∈ Finset.range 12, amplitudes k d t (3 * j + 3) := by
  have key : ∀ c : ℕ, c ≤ 2 → |∑ j ∈ Finset.range 12, value wide k d (fromT k (powers t)) (3 * j + 1 + c) - coordinate k d t c| ≤
      ε * ∑ j ∈ Finset.range 12, amplitudes k d t (3 * j + 1 + c) := by
    intro c hc
    unfold coordinate
    rw [← Finset.sum_sub_distrib, Finset.mul_sum]
    refine (Finset.abs_sum_le_sum_abs _ _).trans (Finset.sum_le_sum fun j hj => ?_)
    rw [Finset.mem_range] at hj
    exact series_close hw k d t (by omega) (by omega)
  refine ⟨?_, ?_, ?_⟩
  · have := key 0 (by norm_num)
    simp only [add_zero] at this
    refine le_trans (le_of_eq ?_) this
    congr 2
    simp only [sums, List.foldl, Finset.sum_range_succ, Finset.sum_range_zero]
  · have := key 1 (by norm_num)
    refine le_trans (le_of_eq ?_) this
    congr 2
    simp only [sums, List.foldl, Finset.sum_range_succ, Finset.sum_range_zero]
  · have := key 2 (by norm_num)
    refine le_trans (le_of_eq ?_) this
    congr 2
    simp only [sums, List.foldl, Finset.sum_range_succ, Finset.sum_range_zero]

/-- The turn to the ecliptic of J2000 is the turn by the inclination `i` about the line of nodes at longitude `Ω`,
where `p = sin (i/2) sin Ω` and `q = sin (i/2) cos Ω`. -/
theorem laskar_turn (node i : ℝ) (hi : 0 ≤ Real.cos (i / 2)) (v : ℝ × ℝ × ℝ) :
    laskar (Real.sin (i / 2) * Real.sin node) (Real.sin (i / 2) * Real.cos node) v = some (turnZ node (turnX i (turnZ (-node) v))) := by
  have hs := Real.sin_sq_add_cos_sq (i / 2)
  have hn := Real.sin_sq_add_cos_sq node
  have e1 : Real.sin i = 2 * Real.sin (i / 2) * Real.cos (i / 2) := by
    rw [← Real.sin_two_mul]; congr 1; ring
  have e2 : Real.cos i = 1 - 2 * Real.sin (i / 2) ^ 2 := by
    have : Real.cos i = Real.cos (2 * (i / 2)) := by congr 1; ring
    rw [this, Real.cos_two_mul, Real.cos_sq']
    ring
  have hr : 1 - Real.sin (i / 2) * Real.sin node * (Real.sin (i / 2) * Real.sin node) -
      Real.sin (i / 2) * Real.cos node * (Real.sin (i / 2) * Real.cos node) = Real.cos (i / 2) ^ 2 := by
    linear_combination -hs - Real.sin (i / 2) ^ 2 * hn
  obtain ⟨x, y, z⟩ := v
  unfold laskar
  rw [hr, if_neg (not_lt.2 (sq_nonneg _)), Real.sqrt_sq hi]
  simp only [turnZ, turnX, Real.cos_neg, Real.sin_neg, e1, e2, Option.some.injEq, Prod.mk.injEq]
  generalize Real.sin (i / 2) = s at *
  generalize Real.cos (i / 2) = c at *
  generalize Real.sin node = S at *
  generalize Real.cos node = C at *
  have hC : C ^ 2 = 1 - S ^ 2 := by linear_combination hn
  refine ⟨?_, ?_, ?_⟩
  · linear_combination (-x + 2 * s ^ 2 * S ^ 2 * 0) * hn
  · linear_combination (-y) * hn
  · linear_combination (-(2 * s ^ 2) * z) * hn

/-- It keeps every angle and length, and answers exactly when `p² + q² ≤ 1`. -/
theorem laskar_rigid (p q : ℝ) : (p ^ 2 + q ^ 2 ≤ 1 ↔ ∀ v, (laskar p q v).isSome) ∧
    ∀ u v u' v', laskar p q u = some u' → laskar p q v = some v' → dot u' v' = dot u v := by
  constructor
  · constructor
    · intro h v
      unfold laskar
      rw [if_neg (by nlinarith)]
      rfl
    · intro h
      have := h (0, 0, 0)
      unfold laskar at this
      by_contra hc
      rw [if_pos (by nlinarith)] at this
      cases this
  · rintro ⟨a, b, c⟩ ⟨x, y, z⟩ u' v' h1 h2
    unfold laskar at h1 h2
    split at h1
    · cases h1
    · rename_i hp
      rw [if_neg hp] at h2
      have hsq := Real.sq_sqrt (not_lt.1 hp)
      simp only [Option.some.injEq] at h1 h2
      subst h1 h2
      generalize Real.sqrt (1 - p * p - q * q) = r at hsq
      simp only [dot]
      linear_combination (4 * p ^ 2 * c * z + 4 * q ^ 2 * c * z + 4 * p ^ 2 * a * x - 4 * p * q * a * y - 4 * p * q * b * x + 4 * q ^ 2 * b * y) * hsq

/-- A turn by 60° about the first axis takes the third axis where it should. -/
example : laskar 0 (Real.sin (Real.pi / 3 / 2)) (0, 0, 1) = some (0, -Real.sin (Real.pi / 3), Real.cos (Real.pi / 3)) := by
  have := laskar_turn 0 (Real.pi / 3) (Real.cos_nonneg_of_mem_Icc ⟨by linarith [Real.pi_pos], by linarith [Real.pi_pos]⟩) (0, 0, 1)
  simpa [turnX, turnZ] using this

/-- Where the polynomials leave the unit disc there is no place. -/
example : laskar 1 1 (1, 0, 0) = none := by
  unfold laskar
  norm_num

/-- **C208** The Moon's place: the polar point of the published longitude, latitude and distance, turned to the
ecliptic of J2000. -/
theorem moon_place (k : Const) (d : Tables) (t : ℝ) : geo Real.sin k d t =
    laskar (poly k.p t * t) (poly k.q t * t) (polar (coordinate k d t 0 * (Real.pi / 648000) + poly k.w1 t)
      (coordinate k d t 1 * (Real.pi / 648000)) (coordinate k d t 2 * (k.a0 / k.ath))) := by
  obtain ⟨h1, h2, h3, h4⟩ := powers_eq t
  obtain ⟨s1, s2, s3⟩ := sums_close (wide := Real.sin) (ε := 0) (fun x => by simp) k d t
  rw [zero_mul] at s1 s2 s3
  have e1 := sub_eq_zero.1 (abs_eq_zero.1 (le_antisymm s1 (abs_nonneg _)))
  have e2 := sub_eq_zero.1 (abs_eq_zero.1 (le_antisymm s2 (abs_nonneg _)))
  have e3 := sub_eq_zero.1 (abs_eq_zero.1 (le_antisymm s3 (abs_nonneg _)))
  have hp : ∀ c : Fin 5 → ℝ, c 0 + c 1 * powers t 1 + c 2 * powers t 2 + c 3 * powers t 3 + c 4 * powers t 4 = poly c t := by
    intro c
    simp only [h1, h2, h3, h4, poly, Fin.sum_univ_five]
    simp
  unfold geo
  simp only
  rw [hp, hp, h1, e1, e2, e3]
  have hl : coordinate k d t 0 / 3600 * (Real.pi / 180) + k.w1 0 + k.w1 1 * t + k.w1 2 * powers t 2 + k.w1 3 * powers t 3 + k.w1 4 * powers t 4 =
      coordinate k d t 0 * (Real.pi / 648000) + poly k.w1 t := by
    rw [← hp k.w1, h1]
    ring
  have hb : coordinate k d t 1 / 3600 * (Real.pi / 180) = coordinate k d t 1 * (Real.pi / 648000) := by ring
  rw [hl, hb]
  rfl

/-- The distance of the Moon is that of the distance series, whatever the turn. -/
theorem moon_distance (wide : ℝ → ℝ) (k : Const) (d : Tables) (t : ℝ) {v : ℝ × ℝ × ℝ} (h : geo wide k d t = some v) :
    norm2 v = ((sums wide k d (fromT k (powers t))).2.2 * (k.a0 / k.ath)) ^ 2 := by
  unfold geo at h
  simp only at h
  have := (laskar_rigid _ _).2 _ _ _ _ h h
  have e : dot v v = norm2 v := by unfold dot norm2; ring
  rw [← e, this]
  simp only [dot]
  generalize (sums wide k d (fromT k (powers t))).2.1 / 3600 * (Real.pi / 180) = lat
  have h1 := Real.sin_sq_add_cos_sq lat
  generalize hlon : (sums wide k d (fromT k (powers t))).1 / 3600 * (Real.pi / 180) + k.w1 0 + k.w1 1 * powers t 1 + k.w1 2 * powers t 2 +
    k.w1 3 * powers t 3 + k.w1 4 * powers t 4 = lon
  have h2 := Real.sin_sq_add_cos_sq lon
  generalize (sums wide k d (fromT k (powers t))).2.2 * (k.a0 / k.ath) = r
  linear_combination (r ^ 2) * h1 + r ^ 2 * Real.cos lat ^ 2 * h2

/-- At J2000 there is no turn. -/
theorem moon_at_epoch (wide : ℝ → ℝ) (k : Const) (d : Tables) {s : ℝ × ℝ × ℝ} (hs : s = sums wide k d (fromT k (powers 0))) :
    geo wide k d 0 = some (polar (s.1 / 3600 * (Real.pi / 180) + k.w1 0) (s.2.1 / 3600 * (Real.pi / 180)) (s.2.2 * (k.a0 / k.ath))) := by
  obtain ⟨h1, h2, h3, h4⟩ := powers_eq 0
  subst hs
  unfold geo
  simp only [h1, h2, h3, h4]
  unfold laskar
  norm_num [polar]

/-- Pluto's sums. -/
theorem pluto_sums (t : ℝ) (rows : List Row) : ∀ acc, plutoSums t rows acc =
    (acc.1 + (rows.map fun r => r.lonA * Real.sin (plutoArg t r) + r.lonB * Real.cos (plutoArg t r)).sum,
     acc.2.1 + (rows.map fun r => r.latA * Real.sin (plutoArg t r) + r.latB * Real.cos (plutoArg t r)).sum,
     acc.2.2 + (rows.map fun r => r.radA * Real.sin (plutoArg t r) + r.radB * Real.cos (plutoArg t r)).sum) := by
  induction rows with
  | nil => intro acc; simp [plutoSums]
  | cons r rs ih =>
    intro acc
    rw [plutoSums, ih]
    simp only [List.map_cons, List.sum_cons, Prod.mk.injEq]
    refine ⟨?_, ?_, ?_⟩ <;> ring

theorem plutoArg_eq (t : ℝ) (r : Row) : plutoArg t r = plutoAngle t r := by
  unfold plutoArg plutoAngle
  ring

/-- **C209** Pluto stands at the published longitude, latitude (degrees) and radius (astronomical units). -/
theorem pluto_place (rows : List Row) (t : ℝ) : pluto rows t =
    polar ((238.958116 + 144.96 * t + periodic t rows Row.lonA Row.lonB / 10 ^ 6) * Real.pi / 180)
      ((-3.908239 + periodic t rows Row.latA Row.latB / 10 ^ 6) * Real.pi / 180)
      (40.7241346 + periodic t rows Row.radA Row.radB / 10 ^ 7) := by
  unfold pluto
  simp only [pluto_sums, zero_add, plutoArg_eq]
  unfold polar
  have e : ∀ x y : ℝ, (x * 0.000001 + y) * (Real.pi / 180) = (y + x / 10 ^ 6) * Real.pi / 180 := fun x y => by ring
  have e' : ∀ x : ℝ, (x * 0.000001 - 3.908239) * (Real.pi / 180) = (-3.908239 + x / 10 ^ 6) * Real.pi / 180 := fun x => by ring
  have e'' : ∀ x : ℝ, x * 0.0000001 + 40.7241346 = 40.7241346 + x / 10 ^ 7 := fun x => by ring
  rw [e, e', e'']
  rfl

theorem periodic_le (t : ℝ) (rows : List Row) (a b : Row → ℝ) :
    |periodic t rows a b| ≤ (rows.map fun r => |a r| + |b r|).sum := by
  unfold periodic
  induction rows with
  | nil => simp
  | cons r rs ih =>
    simp only [List.map_cons, List.sum_cons]
    refine (abs_add_le _ _).trans (add_le_add ?_ ih)
    refine (abs_add_le _ _).trans (add_le_add ?_ ?_)
    · rw [abs_mul]
      exact mul_le_of_le_one_right (abs_nonneg _) (Real.abs_sin_le_one _)
    · rw [abs_mul]
      exact mul_le_of_le_one_right (abs_nonneg _) (Real.abs_cos_le_one _)

/-- **C209** Its distance from the Sun is the radius of the series, and stays at every date within the sum of the
amplitudes of the mean radius; so the Sun is never at Pluto's place while those amplitudes are small. -/
theorem pluto_distance (rows : List Row) (t : ℝ) :
    norm2 (pluto rows t) = (40.7241346 + periodic t rows Row.radA Row.radB / 10 ^ 7) ^ 2 ∧
    |periodic t rows Row.radA Row.radB / 10 ^ 7| ≤ (rows.map fun r => |r.radA| + |r.radB|).sum / 10 ^ 7 := by
  constructor
  · rw [pluto_place]
    unfold polar norm2
    generalize (238.958116 + 144.96 * t + periodic t rows Row.lonA Row.lonB / 10 ^ 6) * Real.pi / 180 = lon
    generalize (-3.908239 + periodic t rows Row.latA Row.latB / 10 ^ 6) * Real.pi / 180 = lat
    generalize 40.7241346 + periodic t rows Row.radA Row.radB / 10 ^ 7 = r
    have h1 := Real.sin_sq_add_cos_sq lat
    have h2 := Real.sin_sq_add_cos_sq lon
    linear_combination (r ^ 2) * h1 + r ^ 2 * Real.cos lat ^ 2 * h2
  · rw [abs_div, abs_of_pos (by positivity : (0 : ℝ) < 10 ^ 7)]
    exact div_le_div_of_nonneg_right (periodic_le t rows _ _) (by positivity)

/-- The published latitude of Pluto bounds its height over the ecliptic. -/
theorem pluto_height (rows : List Row) (t : ℝ) : (pluto rows t).2.2 =
    (40.7241346 + periodic t rows Row.radA Row.radB / 10 ^ 7) *
      Real.sin ((-3.908239 + periodic t rows Row.latA Row.latB / 10 ^ 6) * Real.pi / 180) := by
  rw [pluto_place]
  rfl

/-- With no rows at all Pluto would go round a circle. -/
example (t : ℝ) : norm2 (pluto [] t) = 40.7241346 ^ 2 := by
  have := (pluto_distance [] t).1
  simpa [periodic] using this

/-- The first published row (Meeus, table 37.A): longitude −19799805 and 19850055, radius 66865439 and 68951812. -/
example : |periodic 0 [⟨0, 0, 1, -19799805, 19850055, -5452852, -14974862, 66865439, 68951812⟩] Row.radA Row.radB / 10 ^ 7|
    ≤ 13.5817251 := by
  have := (pluto_distance [⟨0, 0, 1, -19799805, 19850055, -5452852, -14974862, 66865439, 68951812⟩] 0).2
  refine this.trans ?_
  norm_num

end Verif.Elp.Props
