import Verif.Catalog.Model
import Verif.Sky.Basic
import Mathlib.Tactic.Linarith
import Mathlib.Tactic.FieldSimp

/-!
# Star catalogue: searches
-/

namespace Verif.Catalog

open Verif.Text Real
open Verif.Sky (remTau)
open Verif.Sky.Props (remTau_nonneg remTau_lt cos_remTau sin_remTau)

/-! ## Directions -/

/-- The unit vector of right ascension and declination. -/
noncomputable def unit (ra dec : ℝ) : ℝ × ℝ × ℝ := (cos dec * cos ra, cos dec * sin ra, sin dec)

/-- The angle between two directions. -/
noncomputable def separation (ra dec ra' dec' : ℝ) : ℝ :=
  let u := unit ra dec
  let v := unit ra' dec'
  arccos (u.1 * v.1 + u.2.1 * v.2.1 + u.2.2 * v.2.2)

/-- Half the versine of the separation. -/
theorem half_versine (ra dec ra' dec' : ℝ) :
    (1 - (cos dec * cos ra * (cos dec' * cos ra') + cos dec * sin ra * (cos dec' * sin ra') + sin dec * sin dec')) / 2
      = sin ((dec - dec') / 2) ^ 2 + cos dec * cos dec' * sin ((ra - ra') / 2) ^ 2 := by
  have h1 : sin ((dec - dec') / 2) ^ 2 = (1 - cos (dec - dec')) / 2 := by
    have := cos_sq ((dec - dec') / 2)
    rw [mul_div_cancel₀ _ (two_ne_zero)] at this
    have h := sin_sq_add_cos_sq ((dec - dec') / 2)
    linarith
  have h2 : sin ((ra - ra') / 2) ^ 2 = (1 - cos (ra - ra')) / 2 := by
    have := cos_sq ((ra - ra') / 2)
    rw [mul_div_cancel₀ _ (two_ne_zero)] at this
    have h := sin_sq_add_cos_sq ((ra - ra') / 2)
    linarith
  rw [h1, h2, cos_sub, cos_sub]
  ring

theorem dot_bounds (ra dec ra' dec' : ℝ) :
    -1 ≤ cos dec * cos ra * (cos dec' * cos ra') + cos dec * sin ra * (cos dec' * sin ra') + sin dec * sin dec'
      ∧ cos dec * cos ra * (cos dec' * cos ra') + cos dec * sin ra * (cos dec' * sin ra') + sin dec * sin dec' ≤ 1 := by
  have hu : (cos dec * cos ra) ^ 2 + (cos dec * sin ra) ^ 2 + sin dec ^ 2 = 1 := by
    have h1 := sin_sq_add_cos_sq ra
    have h2 := sin_sq_add_cos_sq dec
    calc _ = cos dec ^ 2 * (sin ra ^ 2 + cos ra ^ 2) + sin dec ^ 2 := by ring
      _ = 1 := by rw [h1]; linarith
  have hv : (cos dec' * cos ra') ^ 2 + (cos dec' * sin ra') ^ 2 + sin dec' ^ 2 = 1 := by
    have h1 := sin_sq_add_cos_sq ra'
    have h2 := sin_sq_add_cos_sq dec'
    calc _ = cos dec' ^ 2 * (sin ra' ^ 2 + cos ra' ^ 2) + sin dec' ^ 2 := by ring
      _ = 1 := by rw [h1]; linarith
  generalize cos dec * cos ra = a at *
  generalize cos dec * sin ra = b at *
  generalize sin dec = c at *
  generalize cos dec' * cos ra' = a' at *
  generalize cos dec' * sin ra' = b' at *
  generalize sin dec' = c' at *
  constructor
  · nlinarith [sq_nonneg (a + a'), sq_nonneg (b + b'), sq_nonneg (c + c')]
  · nlinarith [sq_nonneg (a - a'), sq_nonneg (b - b'), sq_nonneg (c - c')]

theorem separation_range (ra dec ra' dec' : ℝ) :
    0 ≤ separation ra dec ra' dec' ∧ separation ra dec ra' dec' ≤ π := ⟨arccos_nonneg _, arccos_le_pi _⟩

theorem sin_half_separation (ra dec ra' dec' : ℝ) : sin (separation ra dec ra' dec' / 2) ^ 2
    = sin ((dec - dec') / 2) ^ 2 + cos dec * cos dec' * sin ((ra - ra') / 2) ^ 2 := by
  obtain ⟨h1, h2⟩ := dot_bounds ra dec ra' dec'
  have hc : cos (separation ra dec ra' dec')
      = cos dec * cos ra * (cos dec' * cos ra') + cos dec * sin ra * (cos dec' * sin ra') + sin dec * sin dec' :=
    cos_arccos h1 h2
  rw [← half_versine, ← hc]
  have := cos_sq (separation ra dec ra' dec' / 2)
  rw [mul_div_cancel₀ _ (two_ne_zero)] at this
  have h := sin_sq_add_cos_sq (separation ra dec ra' dec' / 2)
  linarith

/-- What the code computes falls short of the haversine by the fourth power of the sine of half the difference of
the declinations. -/
theorem haversine_short (ra dec ra' dec' : ℝ) : haversine ra dec ra' dec'
    = sin (separation ra dec ra' dec' / 2) ^ 2 - sin ((dec - dec') / 2) ^ 4 := by
  rw [sin_half_separation]
  unfold haversine
  have h : sin (dec - dec') = 2 * sin ((dec - dec') / 2) * cos ((dec - dec') / 2) := by
    rw [← sin_two_mul, mul_div_cancel₀ _ (two_ne_zero)]
  have hc : cos ((dec - dec') / 2) ^ 2 = 1 - sin ((dec - dec') / 2) ^ 2 := by
    have := sin_sq_add_cos_sq ((dec - dec') / 2)
    linarith
  rw [h]
  calc _ = sin ((dec - dec') / 2) ^ 2 * cos ((dec - dec') / 2) ^ 2
        + cos dec * cos dec' * sin ((ra - ra') / 2) ^ 2 := by ring
    _ = _ := by rw [hc]; ring

theorem half_sep_pos (ra dec ra' dec' : ℝ) : 0 ≤ sin (separation ra dec ra' dec' / 2) := by
  obtain ⟨h1, h2⟩ := separation_range ra dec ra' dec'
  exact sin_nonneg_of_nonneg_of_le_pi (by linarith) (by linarith [pi_pos])

theorem root_le (ra dec ra' dec' : ℝ) :
    sqrt (haversine ra dec ra' dec') ≤ sin (separation ra dec ra' dec' / 2) := by
  rw [haversine_short]
  refine sqrt_le_iff.mpr ⟨half_sep_pos _ _ _ _, ?_⟩
  have : 0 ≤ sin ((dec - dec') / 2) ^ 4 := by positivity
  linarith

/-- The computed distance never exceeds the true one. -/
theorem computed_le (ra dec ra' dec' : ℝ) :
    2 * arcsin (min (sqrt (haversine ra dec ra' dec')) 1) ≤ separation ra dec ra' dec' := by
  obtain ⟨h1, h2⟩ := separation_range ra dec ra' dec'
  have h := root_le ra dec ra' dec'
  rw [min_eq_left (h.trans (sin_le_one _))]
  have := monotone_arcsin h
  rw [arcsin_sin (by linarith [pi_pos]) (by linarith)] at this
  linarith

/-- No star of the cone is left out. -/
theorem cone_complete {ra dec cra cdec radius : ℝ} (h : separation ra dec cra cdec ≤ radius) :
    insideCone ra dec cra cdec radius := (computed_le _ _ _ _).trans h

/-- For a star at the declination of the centre the test is exact. -/
theorem cone_exact_same_dec (ra cra dec radius : ℝ) :
    insideCone ra dec cra dec radius ↔ separation ra dec cra dec ≤ radius := by
  obtain ⟨h1, h2⟩ := separation_range ra dec cra dec
  have hh : haversine ra dec cra dec = sin (separation ra dec cra dec / 2) ^ 2 := by
    rw [haversine_short]
    simp
  unfold insideCone
  rw [hh, sqrt_sq (half_sep_pos _ _ _ _), min_eq_left (sin_le_one _),
    arcsin_sin (by linarith [pi_pos]) (by linarith), mul_div_cancel₀ _ (two_ne_zero)]

/-- How far a star taken for one of the cone may be. -/
theorem cone_bound {ra dec cra cdec radius : ℝ} (hd : |dec| ≤ π / 2) (hc : |cdec| ≤ π / 2) (hr : radius ≤ π)
    (h : insideCone ra dec cra cdec radius) : sin (separation ra dec cra cdec) ≤ 2 * sin (radius / 2) := by
  have hroot := root_le ra dec cra cdec
  unfold insideCone at h
  rw [min_eq_left (hroot.trans (sin_le_one _))] at h
  have h0 : 0 ≤ sqrt (haversine ra dec cra cdec) := sqrt_nonneg _
  have hle : sqrt (haversine ra dec cra cdec) ≤ sin (radius / 2) :=
    (arcsin_le_iff_le_sin ⟨by linarith, hroot.trans (sin_le_one _)⟩
      ⟨by linarith [arcsin_nonneg.mpr h0, pi_pos], by linarith⟩).mp (by linarith)
  have hs := sin_half_separation ra dec cra cdec
  have hcd : 0 ≤ cos dec * cos cdec := mul_nonneg (cos_nonneg_of_mem_Icc (abs_le.mp hd))
    (cos_nonneg_of_mem_Icc (abs_le.mp hc))
  have hs2 : sin ((dec - cdec) / 2) ^ 2 ≤ sin (separation ra dec cra cdec / 2) ^ 2 := by
    rw [hs]
    have := mul_nonneg hcd (sq_nonneg (sin ((ra - cra) / 2)))
    linarith
  have hs4 : sin ((dec - cdec) / 2) ^ 4 ≤ sin (separation ra dec cra cdec / 2) ^ 4 := by
    have := pow_le_pow_left₀ (sq_nonneg _) hs2 2
    calc _ = (sin ((dec - cdec) / 2) ^ 2) ^ 2 := by ring
      _ ≤ _ := this
      _ = _ := by ring
  have hdouble : sin (separation ra dec cra cdec)
      = 2 * sin (separation ra dec cra cdec / 2) * cos (separation ra dec cra cdec / 2) := by
    rw [← sin_two_mul, mul_div_cancel₀ _ (two_ne_zero)]
  have hsq : (sin (separation ra dec cra cdec) / 2) ^ 2 ≤ haversine ra dec cra cdec := by
    rw [haversine_short, hdouble]
    have := sin_sq_add_cos_sq (separation ra dec cra cdec / 2)
    calc _ = sin (separation ra dec cra cdec / 2) ^ 2 * cos (separation ra dec cra cdec / 2) ^ 2 := by ring
      _ = sin (separation ra dec cra cdec / 2) ^ 2 - sin (separation ra dec cra cdec / 2) ^ 4 := by
        rw [show cos (separation ra dec cra cdec / 2) ^ 2 = 1 - sin (separation ra dec cra cdec / 2) ^ 2 by linarith]
        ring
      _ ≤ _ := by linarith
  have := (le_sqrt' (x := sin (separation ra dec cra cdec) / 2) (y := haversine ra dec cra cdec))
  have h3 : sin (separation ra dec cra cdec) / 2 ≤ sqrt (haversine ra dec cra cdec) := le_sqrt_of_sq_le hsq
  linarith

/-- Two stars on one meridian. -/
theorem separation_meridian {dec dec' : ℝ} (ra : ℝ) (h : |dec - dec'| ≤ π) :
    separation ra dec ra dec' = |dec - dec'| := by
  have hdot : cos dec * cos ra * (cos dec' * cos ra) + cos dec * sin ra * (cos dec' * sin ra) + sin dec * sin dec'
      = cos |dec - dec'| := by
    rw [cos_abs, cos_sub]
    have := sin_sq_add_cos_sq ra
    calc _ = cos dec * cos dec' * (sin ra ^ 2 + cos ra ^ 2) + sin dec * sin dec' := by ring
      _ = _ := by rw [this, mul_one]
  show arccos _ = _
  simp only [unit]
  rw [hdot]
  exact arccos_cos (abs_nonneg _) h

/-- A cone of sixty degrees takes in every star on the meridian of its centre, however far. -/
theorem cone_meridian (ra dec cdec : ℝ) : insideCone ra dec ra cdec (π / 3) := by
  have hh : haversine ra dec ra cdec = (sin (dec - cdec) / 2) ^ 2 := by
    unfold haversine
    simp
  unfold insideCone
  rw [hh, sqrt_sq_eq_abs]
  have h1 : |sin (dec - cdec) / 2| ≤ 1 / 2 := by
    rw [abs_div, abs_two]
    have := abs_sin_le_one (dec - cdec)
    linarith
  have h2 : min |sin (dec - cdec) / 2| 1 ≤ sin (π / 6) := by
    rw [sin_pi_div_six]
    exact (min_le_left _ _).trans h1
  have := monotone_arcsin h2
  rw [arcsin_sin (by linarith [pi_pos]) (by linarith [pi_pos])] at this
  linarith

/-- A star 150 degrees away is found in that cone, and one at the other pole in a cone of radius zero. -/
theorem cone_false_hits :
    (∃ dec cdec : ℝ, |dec| ≤ π / 2 ∧ |cdec| ≤ π / 2 ∧ insideCone 0 dec 0 cdec (π / 3)
        ∧ separation 0 dec 0 cdec = 5 * π / 6)
      ∧ insideCone 0 (π / 2) 0 (-(π / 2)) 0 ∧ separation 0 (π / 2) 0 (-(π / 2)) = π := by
  have hp := pi_pos
  refine ⟨⟨5 * π / 12, -(5 * π / 12), ?_, ?_, cone_meridian _ _ _, ?_⟩, ?_, ?_⟩
  · rw [abs_of_pos (by positivity)]; linarith
  · rw [abs_neg, abs_of_pos (by positivity)]; linarith
  · have e : 5 * π / 12 - -(5 * π / 12) = 5 * π / 6 := by ring
    rw [separation_meridian 0 (by rw [e, abs_of_pos (by positivity)]; linarith), e, abs_of_pos (by positivity)]
  · unfold insideCone haversine
    have e : π / 2 - -(π / 2) = π := by ring
    rw [e]
    simp
  · have e : π / 2 - -(π / 2) = π := by ring
    rw [separation_meridian 0 (by rw [e, abs_of_pos hp]), e, abs_of_pos hp]

/-! ## Searches -/

/-- A magnitude is beyond a limit: both are numbers or infinite, and it is the larger one in the usual order. -/
inductive Beyond : F64 → F64 → Prop
  | numbers {a b : ℚ} : b < a → Beyond (.num a) (.num b)
  | infinite {b : ℚ} : Beyond (.inf false) (.num b)
  | aboveMinus {a : ℚ} : Beyond (.num a) (.inf true)
  | both : Beyond (.inf false) (.inf true)

theorem gt_iff (a b : F64) : gt a b = true ↔ Beyond a b := by
  constructor
  · intro h
    cases a with
    | num a => cases b with
      | num b => exact .numbers (by simpa [gt] using h)
      | inf n => cases n with
        | true => exact .aboveMinus
        | false => cases h
      | nan => cases h
    | inf n => cases b with
      | num b => cases n with
        | true => cases h
        | false => exact .infinite
      | inf n' => cases n <;> cases n' <;> first | exact .both | cases h
      | nan => cases n <;> cases h
    | nan => cases b <;> cases h
  · rintro (h | _ | _ | _)
    · simpa [gt] using h
    all_goals rfl

/-- A magnitude that is no number is beyond no limit, and nothing is beyond a limit that is no number. -/
theorem nan_beyond (m : F64) : ¬ Beyond .nan m ∧ ¬ Beyond m .nan := by
  constructor <;> (intro h; cases h)

/-- Bright enough and of the quality asked for. -/
structure Wanted (f : Filter) (r : Record) : Prop where
  bright : ∀ m, f.maxG = some m → ∃ g, r.g = some g ∧ ¬ Beyond g m
  quality : ∀ q, f.quality = some q → r.quality = q

theorem passes_iff (r : Record) (f : Filter) : passes r f = true ↔ Wanted f r := by
  unfold passes
  rw [Bool.and_eq_true]
  constructor
  · rintro ⟨h1, h2⟩
    refine ⟨fun m hm => ?_, fun q hq => ?_⟩
    · rw [hm] at h1
      cases hg : r.g with
      | none => rw [hg] at h1; cases h1
      | some g => rw [hg] at h1; exact ⟨g, rfl, by rw [← gt_iff]; simpa using h1⟩
    · rw [hq] at h2
      simpa using h2
  · rintro ⟨h1, h2⟩
    constructor
    · cases hm : f.maxG with
      | none => rfl
      | some m =>
        obtain ⟨g, hg, hgt⟩ := h1 m hm
        rw [← gt_iff] at hgt
        simp [hg, hgt]
    · cases hq : f.quality with
      | none => rfl
      | some q => simp [h2 q hq]

/-- Every wanted star within the radius is found. -/
theorem search_complete {rs : List Record} {cra cdec radius : ℝ} {f : Filter} {r : Record} (hr : r ∈ rs)
    (hw : Wanted f r) (hs : separation r.ra r.dec cra cdec ≤ radius) : r ∈ coneSearch rs cra cdec radius f := by
  unfold coneSearch
  rw [List.mem_filter]
  exact ⟨hr, by simp [cone_complete hs, (passes_iff r f).mpr hw]⟩

/-- Nothing else is found but wanted stars, in the order of the catalogue, each as often as it is there. -/
theorem search_sound {rs : List Record} {cra cdec radius : ℝ} {f : Filter} :
    (coneSearch rs cra cdec radius f).Sublist rs
      ∧ (∀ r ∈ coneSearch rs cra cdec radius f, Wanted f r ∧ insideCone r.ra r.dec cra cdec radius) := by
  unfold coneSearch
  refine ⟨List.filter_sublist, fun r hr => ?_⟩
  have h := Bool.and_eq_true_iff.mp (List.mem_filter.mp hr).2
  exact ⟨(passes_iff r f).mp h.2, of_decide_eq_true h.1⟩

theorem chunks_flatten {α : Type} (n : Nat) (h : 0 < n) : ∀ l : List α, (chunks n h l).flatten = l := by
  intro l
  induction hn : l.length using Nat.strong_induction_on generalizing l with
  | _ k ih =>
    cases l with
    | nil => unfold chunks; rfl
    | cons a t =>
      unfold chunks
      rw [List.flatten_cons, ih ((a :: t).drop n).length (by subst hn; simp; omega) _ rfl, List.take_append_drop]

theorem chunks_size {α : Type} (n : Nat) (h : 0 < n) : ∀ l : List α, ∀ c ∈ chunks n h l, c ≠ [] ∧ c.length ≤ n := by
  intro l
  induction hn : l.length using Nat.strong_induction_on generalizing l with
  | _ k ih =>
    cases l with
    | nil => unfold chunks; simp
    | cons a t =>
      unfold chunks
      intro c hc
      rcases List.mem_cons.mp hc with rfl | hc
      · refine ⟨?_, by simp⟩
        rw [Ne, List.take_eq_nil_iff]
        simp
        omega
      · exact ih ((a :: t).drop n).length (by subst hn; simp; omega) _ rfl c hc

theorem filter_flatten {α : Type} (p : α → Bool) : ∀ ls : List (List α), (ls.map (List.filter p)).flatten = ls.flatten.filter p
  | [] => rfl
  | l :: ls => by simp [List.filter_append]

/-- The chunked search gives the same stars in the same order for every chunk size, zero included. -/
theorem chunked_same (rs : List Record) (cra cdec radius : ℝ) (f : Filter) (size : Nat) :
    (coneSearchChunked rs cra cdec radius f size).flatten = coneSearch rs cra cdec radius f := by
  unfold coneSearchChunked coneSearch
  rw [filter_flatten, chunks_flatten]

/-! ## Proper motion -/

/-- The direction after a time: the two components of the motion added, whatever they are. -/
theorem propagate_direction (r : Record) {a d : ℝ} (ha : r.pmRa = some a) (hd : r.pmDec = some d) (epoch : ℝ)
    (hpole : |cos r.dec| > 1 / 10 ^ 12) :
    unit (propagate r epoch).1 (propagate r epoch).2
      = unit (r.ra + a * (π / 180 / 3600000) * (epoch - r.epoch) / cos r.dec)
          (r.dec + d * (π / 180 / 3600000) * (epoch - r.epoch)) := by
  unfold propagate shiftRa masToRad
  rw [ha, hd]
  simp only
  rw [if_pos hpole]
  generalize r.ra + a * (π / 180 / 3600000) * (epoch - r.epoch) / cos r.dec = x
  generalize r.dec + d * (π / 180 / 3600000) * (epoch - r.epoch) = y
  unfold fold unit
  split_ifs with h1 h2
  · simp only [cos_remTau, sin_remTau, cos_add_pi, sin_add_pi, cos_pi_sub, sin_pi_sub]
    ext <;> simp
  · have e : -π - y = -(y + π) := by ring
    simp only [cos_remTau, sin_remTau, cos_add_pi, sin_add_pi, e, cos_neg, sin_neg]
    ext <;> simp
  · simp only [cos_remTau, sin_remTau]

/-- The result is in the usual ranges as long as the declination moves by at most half a turn. -/
theorem propagate_range (r : Record) {a d : ℝ} (ha : r.pmRa = some a) (hd : r.pmDec = some d) (epoch : ℝ)
    (hdec : |r.dec| ≤ π / 2) (hmove : |d * (π / 180 / 3600000) * (epoch - r.epoch)| ≤ π) :
    0 ≤ (propagate r epoch).1 ∧ (propagate r epoch).1 < 2 * π ∧ |(propagate r epoch).2| ≤ π / 2 := by
  unfold propagate masToRad
  rw [ha, hd]
  simp only
  rw [abs_le] at hdec hmove
  generalize d * (π / 180 / 3600000) * (epoch - r.epoch) = m at *
  unfold fold
  split_ifs with h1 h2
  · exact ⟨remTau_nonneg _, remTau_lt _, by rw [abs_le]; constructor <;> simp only <;> linarith⟩
  · exact ⟨remTau_nonneg _, remTau_lt _, by rw [abs_le]; constructor <;> simp only <;> linarith⟩
  · exact ⟨remTau_nonneg _, remTau_lt _, by rw [abs_le]; constructor <;> simp only <;> linarith⟩

/-- At its own epoch a star is where the catalogue has it. -/
theorem propagate_own_epoch (r : Record) (hra : 0 ≤ r.ra) (hra' : r.ra < 2 * π) (hdec : |r.dec| ≤ π / 2) :
    propagate r r.epoch = (r.ra, r.dec) := by
  unfold propagate
  split
  · have h0 : ∀ a, shiftRa a (r.epoch - r.epoch) r.dec = 0 := by intro a; unfold shiftRa; simp
    rw [h0, sub_self, mul_zero, add_zero, add_zero]
    rw [abs_le] at hdec
    have hrt : remTau r.ra = r.ra := by
      unfold remTau
      have : ⌊r.ra / (2 * π)⌋ = 0 := by
        rw [Int.floor_eq_zero_iff]
        exact ⟨by positivity, by rw [div_lt_one (by positivity)]; exact hra'⟩
      rw [this]
      simp
    unfold fold
    rw [if_neg (by linarith), if_neg (by linarith), hrt]
  · rfl

/-- Without both components nothing moves. -/
theorem propagate_without (r : Record) (epoch : ℝ) (h : r.pmRa = none ∨ r.pmDec = none) :
    propagate r epoch = (r.ra, r.dec) := by
  unfold propagate
  rcases h with h | h <;> rw [h]
  cases r.pmRa <;> rfl

/-- The search at an epoch is the search among the stars moved there. -/
theorem search_at_epoch {rs : List Record} {cra cdec radius epoch : ℝ} {f : Filter} {r : Record} (hr : r ∈ rs) :
    r ∈ coneSearchAt rs cra cdec radius epoch f
      ↔ Wanted f r ∧ insideCone (propagate r epoch).1 (propagate r epoch).2 cra cdec radius := by
  unfold coneSearchAt
  constructor
  · intro h
    have h := Bool.and_eq_true_iff.mp (List.mem_filter.mp h).2
    exact ⟨(passes_iff r f).mp h.2, of_decide_eq_true h.1⟩
  · rintro ⟨h1, h2⟩
    exact List.mem_filter.mpr ⟨hr, Bool.and_eq_true_iff.mpr ⟨decide_eq_true h2, (passes_iff r f).mpr h1⟩⟩

/-- A star moving across the pole. -/
example : ∃ r : Record, r.pmRa = some 0 ∧ r.pmDec = some 3600000 ∧ |cos r.dec| > 1 / 10 ^ 12
    ∧ (propagate r 100).2 < r.dec + 100 * (π / 180) := by
  refine ⟨⟨1, 0, 0, 0, some 0, some 3600000, none, true⟩, rfl, rfl, by simp; norm_num, ?_⟩
  have hp := pi_pos
  unfold propagate fold masToRad
  simp only
  rw [if_pos]
  · simp only; linarith
  · linarith

end Verif.Catalog
