import Verif.Earth.Model
import Verif.Earth.Spec
import Mathlib.Tactic.Linarith
import Mathlib.Tactic.Ring
import Mathlib.Tactic.FieldSimp
import Mathlib.Tactic.NormNum
import Mathlib.Tactic.Push
import Mathlib.Algebra.BigOperators.Group.List.Basic

/-!
# Earth rotation angle, sidereal time and the equation of the equinoxes
-/

namespace Verif.Earth.Props

open Verif.Earth Verif.Earth.Spec

theorem fmod_int (x y : ℝ) : ∃ k : ℤ, fmod x y = x - k * y := ⟨trunc (x / y), rfl⟩

theorem remEuclid_range {x y : ℝ} (h : 0 < y) : 0 ≤ remEuclid x y ∧ remEuclid x y < y := by
  unfold remEuclid
  have h1 := Int.floor_le (x / y)
  have h2 := Int.lt_floor_add_one (x / y)
  have e : x / y * y = x := div_mul_cancel₀ x h.ne'
  constructor
  · nlinarith [mul_le_mul_of_nonneg_right h1 h.le]
  · nlinarith [mul_lt_mul_of_pos_right h2 h]

theorem sameAngle_refl (a : ℝ) : SameAngle a a := ⟨0, by simp⟩

theorem same_swap {a b : ℝ} (h : SameAngle a b) : SameAngle b a := by
  obtain ⟨k, rfl⟩ := h
  exact ⟨-k, by push_cast; ring⟩

theorem same_chain {a b c : ℝ} (h : SameAngle a b) (g : SameAngle b c) : SameAngle a c := by
  obtain ⟨k, rfl⟩ := h
  obtain ⟨l, rfl⟩ := g
  exact ⟨k + l, by push_cast; ring⟩

theorem same_shift {a b : ℝ} (h : SameAngle a b) (c : ℝ) : SameAngle (a + c) (b + c) := by
  obtain ⟨k, rfl⟩ := h
  exact ⟨k, by ring⟩

theorem remEuclid_same (x : ℝ) : SameAngle (remEuclid x tau) x :=
  ⟨-⌊x / tau⌋, by unfold remEuclid tau; push_cast; ring⟩

/-- Two principal angles that differ by whole turns are equal. -/
theorem principal_unique {a b : ℝ} (ha : Principal a) (hb : Principal b) (h : SameAngle a b) :
    a = b := by
  obtain ⟨k, e⟩ := h
  have hp := Real.pi_pos
  have k0 : k = 0 := by
    have h1 : (k : ℝ) < 1 := by
      by_contra hc
      push Not at hc
      nlinarith [ha.2, hb.1, mul_le_mul_of_nonneg_right hc (by positivity : (0 : ℝ) ≤ 2 * Real.pi)]
    have h2 : (-1 : ℝ) < k := by
      by_contra hc
      push Not at hc
      nlinarith [ha.1, hb.2, mul_le_mul_of_nonneg_right hc (by positivity : (0 : ℝ) ≤ 2 * Real.pi)]
    have h1' : k < 1 := by exact_mod_cast h1
    have h2' : -1 < k := by exact_mod_cast h2
    omega
  simp [k0] at e
  exact e

/-- **C100.** The Earth rotation angle of a two-part date lies in `[0, 2π)` and is, up to whole
turns, the conventional linear function of the elapsed UT1 days, however the date is split. -/
theorem earth_rotation_angle (d1 d2 : ℝ) :
    Principal (earthRotationAngleParts d1 d2)
      ∧ SameAngle (earthRotationAngleParts d1 d2) (earthRotation (d1 + d2 - 2451545)) := by
  have hp := Real.pi_pos
  have key : ∀ p q : ℝ, p + q = d1 + d2 →
      SameAngle (remEuclid (fmod p 1 + fmod q 1 + 0.7790572732640
        + 0.00273781191135448 * (p + (q - 2451545))) 1 * tau)
        (earthRotation (d1 + d2 - 2451545)) := by
    intro p q e
    obtain ⟨k, hk⟩ := fmod_int p 1
    obtain ⟨l, hl⟩ := fmod_int q 1
    rw [hk, hl]
    refine ⟨-k - l + 2451545 - ⌊(p - k * 1 + (q - l * 1) + 0.7790572732640
        + 0.00273781191135448 * (p + (q - 2451545))) / 1⌋, ?_⟩
    unfold remEuclid earthRotation tau
    rw [← e]
    push_cast
    ring
  constructor
  · have hr : ∀ z : ℝ, Principal (remEuclid z 1 * tau) := by
      intro z
      have h := remEuclid_range (x := z) (one_pos)
      unfold tau
      exact ⟨mul_nonneg h.1 (by positivity), by nlinarith [h.2]⟩
    unfold earthRotationAngleParts
    exact hr _
  · unfold earthRotationAngleParts
    by_cases h : d1 < d2
    · simp only [if_pos h]
      exact key d1 d2 rfl
    · simp only [if_neg h]
      exact key d2 d1 (add_comm _ _)

/-- **C100.** The angle does not depend on how the date is split into two parts. -/
theorem earth_rotation_split {d1 d2 e1 e2 : ℝ} (h : d1 + d2 = e1 + e2) :
    earthRotationAngleParts d1 d2 = earthRotationAngleParts e1 e2 := by
  have a := earth_rotation_angle d1 d2
  have b := earth_rotation_angle e1 e2
  rw [h] at a
  exact principal_unique a.1 b.1 (same_chain a.2 (same_swap b.2))

/-- **C100.** The single-argument form is the two-part form of the same date. -/
theorem earth_rotation_single (jd d1 d2 : ℝ) (h : d1 + d2 = jd) :
    earthRotationAngle jd = earthRotationAngleParts d1 d2 :=
  earth_rotation_split (by rw [h]; ring)

/-- **C100.** In `days` UT1 days the Earth turns by `2π · 1.00273781191135448 · days`. -/
theorem earth_rotation_rate (jd days : ℝ) :
    SameAngle (earthRotationAngle (jd + days))
      (earthRotationAngle jd + 2 * Real.pi * 1.00273781191135448 * days) := by
  have a := (earth_rotation_angle 2451545 (jd + days - 2451545)).2
  have b := (earth_rotation_angle 2451545 (jd - 2451545)).2
  refine same_chain a (same_chain ?_ (same_shift (same_swap b) _))
  refine ⟨0, ?_⟩
  unfold earthRotation
  push_cast
  ring

/-- **C100.** Greenwich mean sidereal time lies in `[0, 2π)` and equals the Earth rotation angle
plus the accumulated precession in right ascension, up to whole turns. -/
theorem mean_sidereal_time (ut1 tt : ℝ) :
    Principal (gmst ut1 tt)
      ∧ SameAngle (gmst ut1 tt) (earthRotation (ut1 - 2451545)
          + (0.014506 + 4612.156534 * ((tt - 2451545) / 36525)
            + 1.3915817 * ((tt - 2451545) / 36525) ^ 2 - 0.00000044 * ((tt - 2451545) / 36525) ^ 3
            - 0.000029956 * ((tt - 2451545) / 36525) ^ 4
            - 0.0000000368 * ((tt - 2451545) / 36525) ^ 5) * (Real.pi / 648000)) := by
  have hp := Real.pi_pos
  constructor
  · unfold gmst
    exact remEuclid_range (by unfold tau; positivity)
  · unfold gmst
    refine same_chain (remEuclid_same _) ?_
    have b := (earth_rotation_angle 2451545 (ut1 - 2451545)).2
    refine same_chain (same_shift b _) ⟨0, ?_⟩
    unfold arcsec centuries
    have e : (2451545 : ℝ) + (ut1 - 2451545) - 2451545 = ut1 - 2451545 := by ring
    rw [e]
    push_cast
    ring

/-- **C100.** Apparent minus mean sidereal time is `Δψ cos ε` plus the complementary terms. -/
theorem apparent_sidereal_time (ut1 tt dpsi eps : ℝ) :
    Principal (gast ut1 tt dpsi eps)
      ∧ SameAngle (gast ut1 tt dpsi eps)
          (gmst ut1 tt + (dpsi * Real.cos eps + complementaryTerms tt)) := by
  constructor
  · unfold gast
    exact remEuclid_range (by unfold tau; have := Real.pi_pos; positivity)
  · exact remEuclid_same _

/-! ## Complementary terms -/

theorem arcsec_argument_same (p : ℝ) : SameAngle (arcsecArgument p) (p * (Real.pi / 648000)) := by
  obtain ⟨k, hk⟩ := fmod_int p 1296000
  refine ⟨-k, ?_⟩
  unfold arcsecArgument
  rw [hk]
  push_cast
  ring

theorem arguments_same (t : ℝ) : List.Forall₂ SameAngle (arguments t) (fundamental t) := by
  have hf : ∀ x, SameAngle (fmod x tau) x := by
    intro x
    obtain ⟨k, hk⟩ := fmod_int x tau
    exact ⟨-k, by rw [hk]; unfold tau; push_cast; ring⟩
  have ha : ∀ p q : ℝ, p = q → SameAngle (arcsecArgument p) (q * (Real.pi / 648000)) := by
    rintro p q rfl
    exact arcsec_argument_same p
  unfold arguments fundamental
  refine .cons (ha _ _ ?_) (.cons (ha _ _ ?_) (.cons (ha _ _ ?_) (.cons (ha _ _ ?_)
    (.cons (ha _ _ ?_) (.cons (hf _) (.cons (hf _) (.cons ?_ .nil)))))))
  · unfold alPoly; ring
  · unfold alpPoly; ring
  · unfold afPoly; ring
  · unfold adPoly; ring
  · unfold aomPoly; ring
  · exact ⟨0, by push_cast; ring⟩

theorem foldl_angle (l : List (ℤ × ℝ)) (z : ℝ) :
    l.foldl (fun angle p => angle + (p.1 : ℝ) * p.2) z
      = z + (l.map fun p => (p.1 : ℝ) * p.2).sum := by
  induction l generalizing z with
  | nil => simp
  | cons x xs ih => simp only [List.foldl_cons, List.map_cons, List.sum_cons]; rw [ih]; ring

theorem termAngle_eq (nfa : List ℤ) (args : List ℝ) :
    termAngle nfa args = (List.zipWith (fun (k : ℤ) x => (k : ℝ) * x) nfa args).sum := by
  unfold termAngle
  rw [foldl_angle, List.zip, List.map_zipWith]
  simp

theorem zip_same : ∀ (nfa : List ℤ) {xs ys : List ℝ}, List.Forall₂ SameAngle xs ys →
    SameAngle (List.zipWith (fun (k : ℤ) x => (k : ℝ) * x) nfa xs).sum
      (List.zipWith (fun (k : ℤ) x => (k : ℝ) * x) nfa ys).sum
  | [], _, _, _ => by simpa using sameAngle_refl 0
  | _ :: _, _, _, .nil => by simpa using sameAngle_refl 0
  | n :: ns, _, _, .cons h t => by
    obtain ⟨k, hk⟩ := zip_same ns t
    obtain ⟨l, hl⟩ := h
    refine ⟨k + n * l, ?_⟩
    simp only [List.zipWith_cons_cons, List.sum_cons]
    rw [hk, hl]
    push_cast
    ring

theorem sin_same {a b : ℝ} (h : SameAngle a b) : Real.sin a = Real.sin b := by
  obtain ⟨k, rfl⟩ := h
  exact Real.sin_add_int_mul_two_pi b k

theorem cos_same {a b : ℝ} (h : SameAngle a b) : Real.cos a = Real.cos b := by
  obtain ⟨k, rfl⟩ := h
  exact Real.cos_add_int_mul_two_pi b k

/-- The tables as plain triples. -/
noncomputable def plain (ts : List Term) : List (List ℤ × ℝ × ℝ) :=
  ts.map fun t => (t.nfa, (t.sin : ℝ), (t.cos : ℝ))

theorem plain_eect0 : plain eect0 = inArcsec complementary := by
  simp only [plain, eect0, inArcsec, complementary, List.map_cons, List.map_nil]
  norm_num

theorem plain_eect1 : plain eect1 = inArcsec complementaryT := by
  simp only [plain, eect1, inArcsec, complementaryT, List.map_cons, List.map_nil]
  norm_num

theorem evaluate_eq (ts : List Term) {xs ys : List ℝ} (h : List.Forall₂ SameAngle xs ys) :
    evaluateTerms ts xs = series (plain ts) ys := by
  have fold : ∀ (l : List Term) (z : ℝ),
      l.foldl (fun sum term =>
        sum + (term.sin : ℝ) * Real.sin (termAngle term.nfa xs)
          + (term.cos : ℝ) * Real.cos (termAngle term.nfa xs)) z
        = z + (l.map fun term => (term.sin : ℝ) * Real.sin (termAngle term.nfa xs)
          + (term.cos : ℝ) * Real.cos (termAngle term.nfa xs)).sum := by
    intro l
    induction l with
    | nil => intro z; simp
    | cons t l ih =>
      intro z
      simp only [List.foldl_cons, List.map_cons, List.sum_cons]
      rw [ih]
      ring
  unfold evaluateTerms series plain
  rw [fold, zero_add, List.map_reverse, List.sum_reverse, List.map_map]
  congr 1
  apply List.map_congr_left
  intro t _
  simp only [Function.comp]
  rw [termAngle_eq, sin_same (zip_same t.nfa h), cos_same (zip_same t.nfa h)]

/-- **C100.** Reducing the eight arguments to one turn with the sign-following remainder, and
summing the series smallest terms first, does not change the complementary terms: they are the
tabulated series at the unreduced arguments, in radians. -/
theorem complementary_terms (tt : ℝ) :
    complementaryTerms tt
      = (series (inArcsec complementary) (fundamental ((tt - 2451545) / 36525))
          + (tt - 2451545) / 36525
            * series (inArcsec complementaryT) (fundamental ((tt - 2451545) / 36525))) * (Real.pi / 648000) := by
  unfold complementaryTerms centuries
  simp only
  rw [evaluate_eq eect0 (arguments_same _), evaluate_eq eect1 (arguments_same _), plain_eect0,
    plain_eect1]
  norm_num

theorem series_bound (ts : List (List ℤ × ℝ × ℝ)) (xs : List ℝ) :
    |series ts xs| ≤ (ts.map fun t => |t.2.1| + |t.2.2|).sum := by
  unfold series
  induction ts with
  | nil => simp
  | cons t ts ih =>
    simp only [List.map_cons, List.sum_cons]
    refine (abs_add_le _ _).trans (add_le_add ((abs_add_le _ _).trans (add_le_add ?_ ?_)) ih)
    · rw [abs_mul]
      exact mul_le_of_le_one_right (abs_nonneg _) (Real.abs_sin_le_one _)
    · rw [abs_mul]
      exact mul_le_of_le_one_right (abs_nonneg _) (Real.abs_cos_le_one _)

/-- **C100.** Within a century of J2000 the complementary terms stay below 2.75
milliarcseconds. -/
theorem complementary_terms_small (tt : ℝ) (h : |(tt - 2451545) / 36525| ≤ 1) :
    |complementaryTerms tt| ≤ 0.00275 * (Real.pi / 648000) := by
  have hp := Real.pi_pos
  rw [complementary_terms, abs_mul, abs_of_pos (by positivity : (0 : ℝ) < Real.pi / 648000)]
  apply mul_le_mul_of_nonneg_right _ (by positivity)
  have h0 : |series (inArcsec complementary) (fundamental ((tt - 2451545) / 36525))| ≤ 0.002749 := by
    refine (series_bound _ _).trans ?_
    simp only [inArcsec, complementary, List.map_cons, List.map_nil, List.sum_cons, List.sum_nil]
    norm_num [abs_of_pos, abs_of_neg]
  have h1 : |series (inArcsec complementaryT) (fundamental ((tt - 2451545) / 36525))| ≤ 0.00000087 := by
    refine (series_bound _ _).trans ?_
    simp only [inArcsec, complementaryT, List.map_cons, List.map_nil, List.sum_cons, List.sum_nil]
    norm_num [abs_of_pos, abs_of_neg]
  refine (abs_add_le _ _).trans ?_
  rw [abs_mul]
  nlinarith [abs_nonneg (series (inArcsec complementaryT) (fundamental ((tt - 2451545) / 36525))),
    abs_nonneg ((tt - 2451545) / 36525)]

end Verif.Earth.Props
