import Verif.Provider.Extrema
import Verif.Provider.Spec
import Verif.Apparent.Props

namespace Verif.Provider
open Verif.Sky Verif.Sky.Props
open Verif.RootFinding Verif.RootFinding.Spec Verif.RootFinding.Props
open Verif.Provider.Spec
open Verif.Apparent (Policy)
open scoped Matrix

variable {Star Direction Planet Site : Type}

/-! ### Whose altitude -/

/-- The altitude (`Alt`) and azimuth (`Azi`) of a body: what the engine of that body gives, for a star the engine of
directions at the direction of the star, with the apparent place. -/
inductive Alt (e : Engines Star Direction Planet Site) (o : Site) (t : ℝ) : Body Star Direction Planet → ℝ → Prop
  | sun : Alt e o t .sun (e.sunAlt o t)
  | moon : Alt e o t .moon (e.moonAlt o t)
  | planet (p) : Alt e o t (.planet p) (e.planetAlt p o t)
  | star (s) : Alt e o t (.star s) (e.directionAlt (e.ofStar s) o t .apparent)
  | direction (d) : Alt e o t (.direction d) (e.directionAlt d o t .apparent)

inductive Azi (e : Engines Star Direction Planet Site) (o : Site) (t : ℝ) : Body Star Direction Planet → ℝ → Prop
  | sun : Azi e o t .sun (e.sunAz o t)
  | moon : Azi e o t .moon (e.moonAz o t)
  | planet (p) : Azi e o t (.planet p) (e.planetAz p o t)
  | star (s) : Azi e o t (.star s) (e.directionAz (e.ofStar s) o t .apparent)
  | direction (d) : Azi e o t (.direction d) (e.directionAz d o t .apparent)

/-- **C199.** Every body is dispatched to its own engine: altitude and azimuth, and nothing else is an answer. -/
theorem own_engine (e : Engines Star Direction Planet Site) (o : Site) (t : ℝ) (b : Body Star Direction Planet) (x : ℝ) :
    (altitudeAt e o t b = x ↔ Alt e o t b x) ∧ (azimuthAt e o t b = x ↔ Azi e o t b x) := by
  constructor
  · constructor
    · rintro rfl; cases b <;> constructor
    · rintro ⟨⟩ <;> rfl
  · constructor
    · rintro rfl; cases b <;> constructor
    · rintro ⟨⟩ <;> rfl

/-- **C199.** Nothing that happens to the other engines shows: two sets of engines that give a planet the same altitudes
and azimuths have the same culminations and azimuth extrema of it, whatever they say of the Sun, the Moon and the stars. -/
theorem others_do_not_show (fuel : Nat) (e e' : Engines Star Direction Planet Site) (p : Planet) (o : Site)
    (start stop tol : ℝ) (h1 : e.planetAlt p = e'.planetAlt p) (h2 : e.planetAz p = e'.planetAz p) :
    culminations fuel e (.planet p) o start stop tol = culminations fuel e' (.planet p) o start stop tol ∧
    azimuthExtrema fuel e (.planet p) o start stop tol = azimuthExtrema fuel e' (.planet p) o start stop tol := by
  unfold culminations azimuthExtrema altitudeAtWithPolicy azimuthAtWithPolicy altitudeAt azimuthAt
  simp only [h1, h2]
  exact ⟨trivial, trivial⟩

/-! ### Azimuth extrema -/

theorem follows_remTau {az l : ℝ → ℝ} {a b : ℝ} (h : Follows az l a b) :
    ∀ t ∈ Set.Icc a b, az t = remTau (l t) := by
  intro t ht
  obtain ⟨h0, h1, k, hk⟩ := h t ht
  exact (remTau_unique (k := k) h0 h1 (by linarith)).symm

/-- **C198.** The unwrapping closure keeps a state and the search calls it forwards and backwards in
time; still, if the azimuth moves less than half a turn within three scan steps, the search finds
what it finds for the continuous azimuth: the same instants, the same kinds, and the azimuth of
those instants in one turn. -/
theorem azimuth_extrema_exact (fuel : Nat) {az l : ℝ → ℝ} {a b step : ℝ} (tol : ℝ)
    (hf : Follows az l a b) (hslow : Slow l a b (3 * step)) :
    extremaOf fuel az a b step tol =
      (findExtremaTol phi fuel a b step l tol).map fun es =>
        es.map fun x => ⟨x.t, toDeg (az x.t), x.kind⟩ := by
  have h0 : (0 : ℝ) ≤ phi := by unfold phi; norm_num
  have h1 : (phi : ℝ) ≤ 1 := by unfold phi; norm_num
  unfold extremaOf
  by_cases hc : step ≤ 0 ∨ a ≥ b
  · unfold findExtremaM findExtremaTol
    rw [if_pos hc, if_pos hc]
    rfl
  · have hc' := hc
    push Not at hc
    obtain ⟨hs, hab⟩ := hc
    have haz := follows_remTau hf
    have ha : a ∈ Set.Icc a b := ⟨le_rfl, hab.le⟩
    obtain ⟨i, hi⟩ := remTau_eq (l a)
    have hsim := unwrap_simulates (az := az) (l := l) (a := a) (b := b) (w := 3 * step) (-i) haz hslow
    have start : (Unwrap.init.eval (az a)).2 = l a + ((-i : ℤ) : ℝ) * (2 * Real.pi) ∧
        Holds l (-i) (Unwrap.init.eval (az a)).1 a := by
      rw [haz a ha]
      have : (Unwrap.init.eval (remTau (l a))).2 = remTau (l a) := by
        unfold Unwrap.eval Unwrap.init; simp
      refine ⟨?_, rfl, ?_⟩
      · rw [this, hi]; push_cast; ring
      · show remTau (l a) + 0 = _
        rw [hi]; push_cast; ring
    have ht1 : nextSample b step a ∈ Set.Icc a b := by
      refine ⟨?_, nextSample_le⟩
      unfold nextSample; split <;> linarith
    have hn : nextSample b step a ≤ a + step := nextSample_le_add
    have r1 := hsim.step _ a (nextSample b step a) start.2 ha ht1
      (by rw [abs_le]; constructor <;> linarith [ht1.1])
    have loop := extremaLoopM_sim h0 h1 hsim hs tol fuel
      (decide (l (nextSample b step a) + ((-i : ℤ) : ℝ) * (2 * Real.pi) >
        l a + ((-i : ℤ) : ℝ) * (2 * Real.pi))) [] r1.2 le_rfl ht1.1 ht1.2 hn le_rfl ht1.1
      (by linarith) r1.1
    have whole : findExtremaM phi (fun (u : Unwrap) t => u.eval (az t)) .init fuel a b step tol =
        findExtremaTol phi fuel a b step (fun t => l t + ((-i : ℤ) : ℝ) * (2 * Real.pi)) tol := by
      unfold findExtremaM findExtremaTol
      rw [if_neg hc', if_neg hc']
      simp only
      rw [start.1, r1.1]
      rw [r1.1] at loop
      rw [loop]
    rw [whole, findExtrema_add]
    cases hl : findExtremaTol phi fuel a b step l tol with
    | none => rfl
    | some es =>
      simp only [Option.map_some, List.map_map]
      congr 1
      refine List.map_congr_left fun x hx => ?_
      obtain ⟨hv, t0, t1, t2, b0, b1, b2, b3, -, -, b4, b5, -⟩ := extrema_sound fuel a b step tol l hl hx
      have hxm : x.t ∈ Set.Icc a b := ⟨b0.trans b4, b5.trans b3⟩
      obtain ⟨g0, g1, k, hk⟩ := hf x.t hxm
      have : remTau (x.value + ((-i : ℤ) : ℝ) * (2 * Real.pi)) = az x.t :=
        remTau_unique (k := k + -i) g0 g1 (by rw [hv, hk]; push_cast; ring)
      simp only [Function.comp_apply, raise, this]

/-- **C198.** So every turning point of the continuous azimuth that is isolated by two steps and lies
a step away from the ends is reported with its kind and azimuth, -/
theorem azimuth_extrema_complete (fuel : Nat) {az l : ℝ → ℝ} {a b step : ℝ} (tol : ℝ)
    (hf : Follows az l a b) (hslow : Slow l a b (3 * step)) (hs : 0 < step) {m : ℝ}
    (h1 : a + step ≤ m) (h2 : m + step ≤ b) {es : List AzimuthExtremum}
    (h : extremaOf fuel az a b step tol = some es) :
    (LocalPeak l a b step m → ∃ x ∈ es, x.kind = .maximum ∧ x.azimuth = toDeg (az x.mjd) ∧
      |x.mjd - m| ≤ max (tol / 2) (2 / 10 ^ 13 * (2 * step))) ∧
    (LocalValley l a b step m → ∃ x ∈ es, x.kind = .minimum ∧ x.azimuth = toDeg (az x.mjd) ∧
      |x.mjd - m| ≤ max (tol / 2) (2 / 10 ^ 13 * (2 * step))) := by
  rw [azimuth_extrema_exact fuel tol hf hslow, Option.map_eq_some_iff] at h
  obtain ⟨l', hl', rfl⟩ := h
  constructor
  · intro hp
    obtain ⟨x, hx, hk, -, hm⟩ := extrema_peak_found_partial fuel a b step tol m l hs h1 h2 hp hl'
    exact ⟨_, List.mem_map_of_mem hx, hk, rfl, hm⟩
  · intro hp
    obtain ⟨x, hx, hk, -, hm⟩ := extrema_valley_found_partial fuel a b step tol m l hs h1 h2 hp hl'
    exact ⟨_, List.mem_map_of_mem hx, hk, rfl, hm⟩

/-- **C198.** and every extremum reported comes from three samples of the continuous azimuth that turn
there, in time order, with its azimuth in `[0°, 360°)`. -/
theorem azimuth_extrema_sound (fuel : Nat) {az l : ℝ → ℝ} {a b step : ℝ} (tol : ℝ)
    (hf : Follows az l a b) (hslow : Slow l a b (3 * step)) {es : List AzimuthExtremum}
    (h : extremaOf fuel az a b step tol = some es) :
    es.Pairwise (fun x y => x.mjd ≤ y.mjd) ∧ ∀ x ∈ es,
      0 ≤ x.azimuth ∧ x.azimuth < 360 ∧ x.azimuth = toDeg (az x.mjd) ∧
      ∃ t0 t1 t2, a ≤ t0 ∧ t0 < t1 ∧ t1 < t2 ∧ t2 ≤ b ∧ t1 ≤ t0 + step ∧ t2 ≤ t1 + step ∧
        t0 ≤ x.mjd ∧ x.mjd ≤ t2 ∧
        ((x.kind = .maximum ∧ l t0 < l t1 ∧ l t2 ≤ l t1) ∨
         (x.kind = .minimum ∧ l t1 ≤ l t0 ∧ l t1 < l t2)) := by
  rw [azimuth_extrema_exact fuel tol hf hslow, Option.map_eq_some_iff] at h
  obtain ⟨l', hl', rfl⟩ := h
  constructor
  · rw [List.pairwise_map]
    exact extrema_sorted fuel a b step tol l hl'
  · intro x hx
    obtain ⟨y, hy, rfl⟩ := List.mem_map.mp hx
    obtain ⟨-, t0, t1, t2, b0, b1, b2, b3, b6, b7, b4, b5, b8⟩ :=
      extrema_sound fuel a b step tol l hl' hy
    obtain ⟨g0, g1, -⟩ := hf y.t ⟨b0.trans b4, b5.trans b3⟩
    have hpi := Real.pi_pos
    refine ⟨?_, ?_, rfl, t0, t1, t2, b0, b1, b2, b3, b6, b7, b4, b5, b8⟩
    · show 0 ≤ az y.t * (180 / Real.pi)
      positivity
    · show az y.t * (180 / Real.pi) < 360
      rw [mul_div_assoc', div_lt_iff₀ hpi]
      linarith

/-- A bearing swinging across north, ten degrees to each side, with period a day: the hypotheses hold
for the scan step of stars, twenty minutes. -/
example : Follows (fun t => remTau (Real.sin (2 * Real.pi * t) / 6)) (fun t => Real.sin (2 * Real.pi * t) / 6)
    0 1 ∧ Slow (fun t => Real.sin (2 * Real.pi * t) / 6) 0 1 (3 * (20 / 1440)) := by
  constructor
  · intro t _
    obtain ⟨k, hk⟩ := remTau_eq (Real.sin (2 * Real.pi * t) / 6)
    refine ⟨remTau_nonneg _, remTau_lt _, k, ?_⟩
    simp only
    rw [hk]; ring
  · intro t _ u _ _
    have h1 := Real.sin_le_one (2 * Real.pi * t)
    have h2 := Real.neg_one_le_sin (2 * Real.pi * t)
    have h3 := Real.sin_le_one (2 * Real.pi * u)
    have h4 := Real.neg_one_le_sin (2 * Real.pi * u)
    have := Real.pi_gt_three
    rw [abs_lt]
    constructor <;> linarith

/-- **C198 (finding).** A body that passes near the zenith turns through more than half the horizon
within one scan step, which is two hours for the Sun, the Moon and the planets. Its azimuth grows all
the time, without passing north, and still an extremum is reported. -/
theorem zenith_passage_reported (tol : ℝ) :
    (∀ t ∈ Set.Icc (0 : ℝ) 2, 0 ≤ 5 / 4 * t ^ 2 ∧ 5 / 4 * t ^ 2 < 2 * Real.pi) ∧
    StrictMonoOn (fun t : ℝ => 5 / 4 * t ^ 2) (Set.Icc 0 2) ∧
    ∃ x, extremaOf 2 (fun t => 5 / 4 * t ^ 2) 0 2 1 tol = some [x] ∧ x.kind = .maximum := by
  have hpi := Real.pi_gt_three
  have hpi4 := Real.pi_lt_d2
  refine ⟨?_, ?_, ?_⟩
  · intro t ht
    refine ⟨by positivity, ?_⟩
    have := ht.1; have := ht.2
    nlinarith
  · intro x hx y hy hxy
    have := hx.1
    simp only
    nlinarith
  · have n1 : nextSample (2 : ℝ) 1 0 = 1 := by unfold nextSample; norm_num
    have n2 : nextSample (2 : ℝ) 1 1 = 2 := by unfold nextSample; norm_num
    have n3 : nextSample (2 : ℝ) 1 2 = 2 := by unfold nextSample; norm_num
    have e0 : (Unwrap.init.eval (5 / 4 * 0 ^ 2)) = (⟨some 0, 0⟩, 0) := by
      unfold Unwrap.eval Unwrap.init; norm_num
    have e1 : ((⟨some 0, 0⟩ : Unwrap).eval (5 / 4 * 1 ^ 2)) = (⟨some (5 / 4), 0⟩, 5 / 4) := by
      unfold Unwrap.eval
      simp only
      rw [if_neg (by linarith), if_neg (by linarith)]
      norm_num
    have e2 : ((⟨some (5 / 4), 0⟩ : Unwrap).eval (5 / 4 * 2 ^ 2)) =
        (⟨some 5, -(2 * Real.pi)⟩, 5 - 2 * Real.pi) := by
      unfold Unwrap.eval
      simp only
      rw [if_pos (by linarith)]
      norm_num
      ring
    unfold extremaOf findExtremaM
    rw [if_neg (by norm_num)]
    simp only [n1, e0, e1]
    have d1 : decide ((5 / 4 : ℝ) > 0) = true := by norm_num
    have d2 : decide (5 - 2 * Real.pi > 5 / 4) = false := by
      rw [decide_eq_false_iff_not]; linarith
    simp only [d1]
    unfold extremaLoopM
    simp only [n2]
    rw [if_neg (by norm_num)]
    simp only [e2, d2]
    unfold extremaLoopM
    simp only [n3]
    rw [if_pos le_rfl]
    unfold detectM
    simp only [Bool.not_false, Bool.and_true, if_true, Option.map_some, List.nil_append,
      List.mergeSort_singleton, List.map_cons, List.map_nil]
    exact ⟨_, rfl, rfl⟩

/-! ### Culminations -/

/-- The altitude of a body whose hour angle is `h`, on a circle about the pole: `p` and `q` are the
products of the sines and of the cosines of latitude and declination. -/
noncomputable def circling (p q : ℝ) (h : ℝ → ℝ) (t : ℝ) : ℝ := Real.arcsin (p + q * Real.cos (h t))

theorem circling_lt {p q : ℝ} (hq : 0 < q) (hpq : |p| + q ≤ 1) {h : ℝ → ℝ} {s t : ℝ} :
    circling p q h s < circling p q h t ↔ Real.cos (h s) < Real.cos (h t) := by
  have hp := abs_le.mp (show |p| ≤ 1 - q by linarith)
  have mem : ∀ x : ℝ, p + q * Real.cos x ∈ Set.Icc (-1 : ℝ) 1 := by
    intro x
    have h1 := Real.cos_le_one x
    have h2 := Real.neg_one_le_cos x
    constructor <;> nlinarith
  unfold circling
  rw [Real.strictMonoOn_arcsin.lt_iff_lt (mem _) (mem _)]
  constructor
  · intro hh; nlinarith
  · intro hh; nlinarith

theorem cos_turn (x : ℝ) (k : ℤ) : Real.cos (x - k * (2 * Real.pi)) = Real.cos x :=
  Real.cos_sub_int_mul_two_pi x k

/-- Around an upper transit the altitude has one peak, as far as half a turn to both sides. -/
theorem circling_peak {p q : ℝ} (hq : 0 < q) (hpq : |p| + q ≤ 1) {w c : ℝ} (hw : 0 < w) {m A B : ℝ}
    (hm : UpperTransit (fun t => w * t + c) m) (hA : A ≤ m) (hB : m ≤ B)
    (hA' : w * (m - A) ≤ Real.pi) (hB' : w * (B - m) ≤ Real.pi) :
    Peak (circling p q fun t => w * t + c) A B m := by
  obtain ⟨k, hk⟩ := hm
  simp only at hk
  refine ⟨hA, hB, ?_, ?_⟩
  · intro x hx y hy hxy
    rw [circling_lt hq hpq, ← cos_turn (w * x + c) k, ← cos_turn (w * y + c) k, ← Real.cos_neg,
      ← Real.cos_neg (w * y + c - _)]
    refine Real.strictAntiOn_cos ⟨?_, ?_⟩ ⟨?_, ?_⟩ ?_
    · nlinarith [hy.2]
    · nlinarith [hy.1]
    · nlinarith [hx.2]
    · nlinarith [hx.1]
    · nlinarith
  · intro x hx y hy hxy
    rw [circling_lt hq hpq, ← cos_turn (w * x + c) k, ← cos_turn (w * y + c) k]
    refine Real.strictAntiOn_cos ⟨?_, ?_⟩ ⟨?_, ?_⟩ ?_
    · nlinarith [hx.1]
    · nlinarith [hx.2]
    · nlinarith [hy.1]
    · nlinarith [hy.2]
    · nlinarith

theorem circling_valley {p q : ℝ} (hq : 0 < q) (hpq : |p| + q ≤ 1) {w c : ℝ} (hw : 0 < w) {m A B : ℝ}
    (hm : LowerTransit (fun t => w * t + c) m) (hA : A ≤ m) (hB : m ≤ B)
    (hA' : w * (m - A) ≤ Real.pi) (hB' : w * (B - m) ≤ Real.pi) :
    Valley (circling p q fun t => w * t + c) A B m := by
  obtain ⟨k, hk⟩ := hm
  simp only at hk
  have flip : ∀ x, Real.cos (w * x + c) = -Real.cos (w * x + (c - Real.pi)) := by
    intro x
    rw [show w * x + (c - Real.pi) = w * x + c - Real.pi by ring, Real.cos_sub_pi, neg_neg]
  have hp := circling_peak (p := p) hq hpq (c := c - Real.pi) hw (m := m)
    ⟨k, by show w * m + (c - Real.pi) = _; linarith⟩ hA hB hA' hB'
  refine ⟨hA, hB, ?_, ?_⟩
  · intro x hx y hy hxy
    have := hp.2.2.1 hx hy hxy
    rw [circling_lt hq hpq] at this ⊢
    rw [flip, flip]
    linarith
  · intro x hx y hy hxy
    have := hp.2.2.2 hx hy hxy
    rw [circling_lt hq hpq] at this ⊢
    rw [flip, flip]
    linarith

/-- Three instants within half a turn, the middle one the highest: an upper transit between. -/
theorem turn_between {x y z : ℝ} (hxy : x < y) (hyz : y < z) (h1 : Real.cos x < Real.cos y)
    (h2 : Real.cos z ≤ Real.cos y) : ∃ k : ℤ, x ≤ k * (2 * Real.pi) ∧ k * (2 * Real.pi) ≤ z := by
  have hpi : 0 < 2 * Real.pi := by positivity
  refine ⟨⌈x / (2 * Real.pi)⌉, ?_, ?_⟩
  · have := Int.le_ceil (x / (2 * Real.pi))
    rwa [div_le_iff₀ hpi] at this
  · by_contra hz
    rw [not_le] at hz
    have hlow := Int.ceil_lt_add_one (x / (2 * Real.pi))
    generalize ⌈x / (2 * Real.pi)⌉ = k at hz hlow
    have hlow' : (k - 1) * (2 * Real.pi) < x := by
      rw [← lt_div_iff₀ hpi]; linarith
    -- relative to the lower transit in the middle
    have c : ∀ v, Real.cos v = -Real.cos (v - (k - 1) * (2 * Real.pi) - Real.pi) := by
      intro v
      rw [Real.cos_sub_pi, neg_neg]
      have := cos_turn v (k - 1)
      push_cast at this
      exact this.symm
    rw [c x, c y] at h1
    rw [c z, c y] at h2
    have hx0 : -Real.pi < x - (k - 1) * (2 * Real.pi) - Real.pi := by linarith
    have hz0 : z - (k - 1) * (2 * Real.pi) - Real.pi < Real.pi := by linarith
    have hxy' : x - (k - 1) * (2 * Real.pi) - Real.pi < y - (k - 1) * (2 * Real.pi) - Real.pi := by
      linarith
    have hyz' : y - (k - 1) * (2 * Real.pi) - Real.pi < z - (k - 1) * (2 * Real.pi) - Real.pi := by
      linarith
    generalize x - (k - 1) * (2 * Real.pi) - Real.pi = x' at *
    generalize y - (k - 1) * (2 * Real.pi) - Real.pi = y' at *
    generalize z - (k - 1) * (2 * Real.pi) - Real.pi = z' at *
    rcases le_or_gt 0 y' with hy | hy
    · have := Real.strictAntiOn_cos ⟨hy, by linarith⟩ ⟨by linarith, hz0.le⟩ hyz'
      linarith
    · have := Real.strictAntiOn_cos (a := -y') (b := -x') ⟨by linarith, by linarith⟩
        ⟨by linarith, by linarith⟩ (by linarith)
      rw [Real.cos_neg, Real.cos_neg] at this
      linarith

/-- The search on the altitude of a body circling the pole evenly. -/
theorem circling_extrema (fuel : Nat) {p q : ℝ} (hqp : 0 < q) (hpq : |p| + q ≤ 1) {w c : ℝ}
    (hw : 0 < w) (hw' : w * (2 * (20 / 1440)) ≤ Real.pi) {a b tol : ℝ} {es : List (Extremum ℝ)}
    (hes : findExtremaTol phi fuel a b (20 / 1440) (circling p q fun t => w * t + c) tol = some es) :
    (∀ x ∈ es, a ≤ x.t ∧ x.t ≤ b ∧ x.value = circling p q (fun t => w * t + c) x.t ∧
      ∃ m, |x.t - m| ≤ max (tol / 2) (2 / 10 ^ 13 * (40 / 1440)) ∧
        ((x.kind = .maximum ∧ UpperTransit (fun t => w * t + c) m) ∨
         (x.kind = .minimum ∧ LowerTransit (fun t => w * t + c) m))) ∧
    (∀ m, a + 20 / 1440 ≤ m → m + 20 / 1440 ≤ b →
      (UpperTransit (fun t => w * t + c) m →
        ∃ x ∈ es, x.kind = .maximum ∧ |x.t - m| ≤ max (tol / 2) (2 / 10 ^ 13 * (40 / 1440))) ∧
      (LowerTransit (fun t => w * t + c) m →
        ∃ x ∈ es, x.kind = .minimum ∧ |x.t - m| ≤ max (tol / 2) (2 / 10 ^ 13 * (40 / 1440)))) := by
  constructor
  · intro y hy'
    have just : Justified phi (circling p q fun t => w * t + c) a b (20 / 1440) tol y := by
      unfold findExtremaTol at hes
      split at hes
      · cases hes; simp at hy'
      · rename_i hcond
        push Not at hcond
        obtain ⟨l', hl', rfl⟩ := Option.map_eq_some_iff.mp hes
        refine extremaLoop_justified phi _ a b _ tol fuel _ _ _ _ _ le_rfl ?_ nextSample_le_add rfl
          (by simp) hl' y (by simpa [List.mem_mergeSort] using hy')
        unfold nextSample
        split <;> linarith
    obtain ⟨t0, t1, t2, b0, b1, b2, b3, b4, b5, bv, hk⟩ := just
    have hwid : w * (t2 - t0) ≤ Real.pi := by nlinarith
    have h2s : t2 - t0 ≤ 40 / 1440 := by linarith
    have acc : ∀ z, max (tol / 2) (2 / 10 ^ 13 * (t2 - t0)) ≤ z ∨
        max (tol / 2) (2 / 10 ^ 13 * (t2 - t0)) ≤ max (tol / 2) (2 / 10 ^ 13 * (40 / 1440)) := by
      intro z
      right
      refine max_le_max le_rfl ?_
      linarith
    have acc' := (acc (max (tol / 2) (2 / 10 ^ 13 * (t2 - t0)) - 1)).resolve_left (by linarith)
    have hx01 : w * t0 + c < w * t1 + c := by nlinarith
    have hx12 : w * t1 + c < w * t2 + c := by nlinarith
    rcases hk with ⟨hk, c1, c2, ht⟩ | ⟨hk, c1, c2, ht⟩
    · rw [circling_lt hqp hpq] at c1
      rw [← not_lt, circling_lt hqp hpq, not_lt] at c2
      obtain ⟨k, k1, k2⟩ := turn_between hx01 hx12 c1 c2
      set m := (k * (2 * Real.pi) - c) / w with hm
      have hwm : w * m = k * (2 * Real.pi) - c := by rw [hm]; field_simp
      have m1 : t0 ≤ m := by
        by_contra hh
        rw [not_le] at hh
        nlinarith
      have m2 : m ≤ t2 := by
        by_contra hh
        rw [not_le] at hh
        nlinarith
      have hup : UpperTransit (fun t => w * t + c) m := ⟨k, by simp only; linarith⟩
      have pk := circling_peak (p := p) hqp hpq hw hup m1 m2 (by nlinarith) (by nlinarith)
      have := maximizeTol_accurate (tol := tol) phi_golden pk
      have mem := maximizeTol_mem phi_golden (circling p q fun t => w * t + c) tol (show t0 ≤ t2 by linarith)
      rw [← ht] at this mem
      exact ⟨b0.trans mem.1, mem.2.trans b3, bv, m, this.trans acc',
        Or.inl ⟨hk, hup⟩⟩
    · rw [circling_lt hqp hpq] at c2
      rw [← not_lt, circling_lt hqp hpq, not_lt] at c1
      -- time reversed and half a turn off
      obtain ⟨k, k1, k2⟩ := turn_between (x := -(w * t2 + c) - Real.pi) (y := -(w * t1 + c) - Real.pi)
        (z := -(w * t0 + c) - Real.pi) (by linarith) (by linarith)
        (by rw [Real.cos_sub_pi, Real.cos_sub_pi, Real.cos_neg, Real.cos_neg]; linarith)
        (by rw [Real.cos_sub_pi, Real.cos_sub_pi, Real.cos_neg, Real.cos_neg]; linarith)
      set m := (((-k - 1 : ℤ) : ℝ) * (2 * Real.pi) + Real.pi - c) / w with hm
      have hwm : w * m = ((-k - 1 : ℤ) : ℝ) * (2 * Real.pi) + Real.pi - c := by rw [hm]; field_simp
      have hwm' : w * m = -(k * (2 * Real.pi)) - Real.pi - c := by rw [hwm]; push_cast; ring
      have m1 : t0 ≤ m := by
        by_contra hh
        rw [not_le] at hh
        nlinarith
      have m2 : m ≤ t2 := by
        by_contra hh
        rw [not_le] at hh
        nlinarith
      have hup : LowerTransit (fun t => w * t + c) m := ⟨-k - 1, by simp only; linarith⟩
      have pk := circling_valley (p := p) hqp hpq hw hup m1 m2 (by nlinarith) (by nlinarith)
      have := minimizeTol_accurate (tol := tol) phi_golden pk
      have mem := minimizeTol_mem phi_golden (circling p q fun t => w * t + c) tol (show t0 ≤ t2 by linarith)
      rw [← ht] at this mem
      exact ⟨b0.trans mem.1, mem.2.trans b3, bv, m, this.trans acc',
        Or.inr ⟨hk, hup⟩⟩
  · intro m h1 h2
    have two : (2 : ℝ) * (20 / 1440) = 40 / 1440 := by norm_num
    constructor
    · intro hup
      have pk := circling_peak (p := p) hqp hpq hw hup (A := m - 2 * (20 / 1440))
        (B := m + 2 * (20 / 1440)) (by linarith) (by linarith) (by nlinarith) (by nlinarith)
      obtain ⟨x, hx', hk, -, hm⟩ := extrema_peak_found_partial fuel a b (20 / 1440) tol m _
        (by norm_num) h1 h2
        ⟨pk.2.2.1.mono (Set.Icc_subset_Icc (le_max_right _ _) le_rfl),
         pk.2.2.2.mono (Set.Icc_subset_Icc le_rfl (min_le_right _ _))⟩ hes
      rw [two] at hm
      exact ⟨x, hx', hk, hm⟩
    · intro hup
      have pk := circling_valley (p := p) hqp hpq hw hup (A := m - 2 * (20 / 1440))
        (B := m + 2 * (20 / 1440)) (by linarith) (by linarith) (by nlinarith) (by nlinarith)
      obtain ⟨x, hx', hk, -, hm⟩ := extrema_valley_found_partial fuel a b (20 / 1440) tol m _
        (by norm_num) h1 h2
        ⟨pk.2.2.1.mono (Set.Icc_subset_Icc (le_max_right _ _) le_rfl),
         pk.2.2.2.mono (Set.Icc_subset_Icc le_rfl (min_le_right _ _))⟩ hes
      rw [two] at hm
      exact ⟨x, hx', hk, hm⟩

/-- **C197.** For a star at rest among the stars and an Earth turning evenly: every maximum reported
is at an upper transit and every minimum at a lower one, to the accuracy asked for, with the altitude
of that instant; and every transit a scan step away from the ends is reported. The hour angle is that
of the place of date (right ascension `α`, declination given by the third component), the observer
and the star are not at a pole. -/
theorem star_culminations (fuel : Nat) (e : Engines Star Direction Planet Site) (d : Direction)
    (o : Site) {npb : Matrix (Fin 3) (Fin 3) ℝ} (hnpb : Apparent.Keeps npb)
    {lat lon ra dec g w α r : ℝ} (hw : 0 < w) (hw' : w * (2 * (20 / 1440)) ≤ Real.pi)
    (hlat : 0 < Real.cos lat) (hr : 0 < r)
    (hx : npb.mulVec ![Real.cos dec * Real.cos ra, Real.cos dec * Real.sin ra, Real.sin dec] 0 =
      r * Real.cos α)
    (hy : npb.mulVec ![Real.cos dec * Real.cos ra, Real.cos dec * Real.sin ra, Real.sin dec] 1 =
      r * Real.sin α)
    (heng : ∀ t, e.directionAlt d o t .apparent =
      Apparent.starAltitude npb (g + w * t) lat lon ra dec .apparent)
    {a b tol : ℝ} {l : List Culmination}
    (h : culminations fuel e (.direction d) o a b tol = some l) :
    (∀ x ∈ l, a ≤ x.mjd ∧ x.mjd ≤ b ∧ x.altitude = toDeg (e.directionAlt d o x.mjd .apparent) ∧
      ∃ m, |x.mjd - m| ≤ max (tol / 2) (2 / 10 ^ 13 * (40 / 1440)) ∧
        ((x.kind = .maximum ∧ UpperTransit (fun t => g + w * t + lon - α) m) ∨
         (x.kind = .minimum ∧ LowerTransit (fun t => g + w * t + lon - α) m))) ∧
    (∀ m, a + 20 / 1440 ≤ m → m + 20 / 1440 ≤ b →
      (UpperTransit (fun t => g + w * t + lon - α) m →
        ∃ x ∈ l, x.kind = .maximum ∧ |x.mjd - m| ≤ max (tol / 2) (2 / 10 ^ 13 * (40 / 1440))) ∧
      (LowerTransit (fun t => g + w * t + lon - α) m →
        ∃ x ∈ l, x.kind = .minimum ∧ |x.mjd - m| ≤ max (tol / 2) (2 / 10 ^ 13 * (40 / 1440)))) := by
  -- the altitude
  set v := npb.mulVec ![Real.cos dec * Real.cos ra, Real.cos dec * Real.sin ra, Real.sin dec] with hv
  have hunit : r ^ 2 + v 2 ^ 2 = 1 := by
    have := Apparent.ofDate_unit hnpb .apparent ra dec
    have he : Apparent.ofDate npb .apparent ra dec = v := by
      unfold Apparent.ofDate
      rw [if_neg (by decide)]
      rfl
    rw [he, hx, hy] at this
    have t := Real.sin_sq_add_cos_sq α
    nlinarith
  set p := Real.sin lat * v 2 with hp
  set q := Real.cos lat * r with hq
  have hqp : 0 < q := mul_pos hlat hr
  have hpq : |p| + q ≤ 1 := by
    have t := Real.sin_sq_add_cos_sq lat
    have s1 : p + q ≤ 1 := by nlinarith [sq_nonneg (Real.sin lat - v 2), sq_nonneg (Real.cos lat - r)]
    have s2 : -p + q ≤ 1 := by nlinarith [sq_nonneg (Real.sin lat + v 2), sq_nonneg (Real.cos lat - r)]
    rcases abs_cases p with ⟨h1, -⟩ | ⟨h1, -⟩ <;> rw [h1] <;> assumption
  have halt : (fun t => altitudeAtWithPolicy e o t .apparent (.direction d)) =
      circling p q fun t => w * t + (g + lon - α) := by
    funext t
    show e.directionAlt d o t .apparent = _
    rw [heng]
    obtain ⟨h1, h2, h3⟩ := Apparent.star_altitude hnpb (g + w * t) lat lon ra dec .apparent (by decide)
    rw [← hv] at h1
    unfold circling
    rw [← Real.arcsin_sin h2 h3, h1]
    congr 1
    simp only [dotProduct, Fin.sum_univ_three, Apparent.Spec.up, Matrix.cons_val_zero,
      Matrix.cons_val_one, Matrix.cons_val, hx, hy, hp, hq]
    rw [show w * t + (g + lon - α) = (g + w * t + lon) - α by ring, Real.cos_sub]
    ring
  have hfun : (fun t => g + w * t + lon - α) = fun t => w * t + (g + lon - α) := by
    funext t; ring
  rw [hfun]
  generalize hc : g + lon - α = c at *
  unfold culminations at h
  rw [halt, Option.map_eq_some_iff] at h
  obtain ⟨es, hes, rfl⟩ := h
  have hst : (altitudeHint (Body.direction d : Body Star Direction Planet)).getD (20 / 1440) =
      (20 / 1440 : ℝ) := rfl
  rw [hst] at hes
  have halt' : ∀ t, e.directionAlt d o t .apparent = circling p q (fun t => w * t + c) t :=
    fun t => congrFun halt t
  obtain ⟨A, B⟩ := circling_extrema fuel hqp hpq hw hw' hes
  constructor
  · intro x hx'
    obtain ⟨y, hy', rfl⟩ := List.mem_map.mp hx'
    obtain ⟨a1, a2, a3, m, a4, a5⟩ := A y hy'
    exact ⟨a1, a2, by simp only [a3, halt'], m, a4, a5⟩
  · intro m h1 h2
    constructor
    · intro hup
      obtain ⟨x, hx', hk, hm⟩ := (B m h1 h2).1 hup
      exact ⟨_, List.mem_map_of_mem hx', hk, hm⟩
    · intro hup
      obtain ⟨x, hx', hk, hm⟩ := (B m h1 h2).2 hup
      exact ⟨_, List.mem_map_of_mem hx', hk, hm⟩

/-- The hypotheses are met: a star at the vernal equinox seen from the equator by an Earth turning
once a day, for which precession and nutation change nothing. -/
example : ∃ e : Engines Unit Unit Unit Unit, Apparent.Keeps (1 : Matrix (Fin 3) (Fin 3) ℝ) ∧
    2 * Real.pi * (2 * (20 / 1440)) ≤ Real.pi ∧ 0 < Real.cos (0 : ℝ) ∧
    (1 : Matrix (Fin 3) (Fin 3) ℝ).mulVec ![Real.cos 0 * Real.cos 0, Real.cos 0 * Real.sin 0, Real.sin 0] 0 =
      1 * Real.cos 0 ∧
    (1 : Matrix (Fin 3) (Fin 3) ℝ).mulVec ![Real.cos 0 * Real.cos 0, Real.cos 0 * Real.sin 0, Real.sin 0] 1 =
      1 * Real.sin 0 ∧
    (∀ t, e.directionAlt () () t .apparent =
      Apparent.starAltitude 1 (0 + 2 * Real.pi * t) 0 0 0 0 .apparent) ∧
    UpperTransit (fun t => 0 + 2 * Real.pi * t + 0 - 0) 1 ∧
    ∃ fuel l, culminations fuel e (.direction ()) () 0 2 (1 / 1000) = some l := by
  refine ⟨⟨fun _ _ => 0, fun _ _ => 0, fun _ _ _ => 0, fun _ _ _ _ => 0, fun _ _ => 0, fun _ _ => 0,
    fun _ _ _ => 0, fun _ _ t p => Apparent.starAltitude 1 (0 + 2 * Real.pi * t) 0 0 0 0 p, id⟩,
    ?_, ?_, ?_, ?_, ?_, fun _ => rfl, ⟨1, by push_cast; ring⟩, ?_⟩
  · intro v
    simp
  · nlinarith [Real.pi_pos]
  · simp
  · simp
  · simp
  · obtain ⟨n, hn⟩ := extrema_terminates (F := ℝ) 0 2 (20 / 1440) (1 / 1000)
      (fun t => Apparent.starAltitude 1 (0 + 2 * Real.pi * t) 0 0 0 0 .apparent)
    obtain ⟨l, hl⟩ := hn (n + 1) (by omega)
    exact ⟨n + 1, _, Option.map_eq_some_iff.mpr ⟨l, hl, rfl⟩⟩

/-- **C197.** For every body, however its altitude varies: the search ends, the culminations are in
time order and inside the window, each with the altitude of its instant, and each is where three
samples no further apart than the step turn; a peak or trough of the altitude that is isolated by two
steps and a step away from the ends is found. The step is two hours for the Moon and the planets and
twenty minutes for the Sun and the stars. -/
theorem culminations_any_body (e : Engines Star Direction Planet Site)
    (body : Body Star Direction Planet) (o : Site) (a b tol : ℝ) :
    ∃ step : ℝ, 0 < step ∧ step ≤ 2 / 24 ∧
    (∃ n, ∀ fuel, n < fuel → ∃ l, culminations fuel e body o a b tol = some l) ∧
    ∀ fuel l, culminations fuel e body o a b tol = some l →
      l.Pairwise (fun x y => x.mjd ≤ y.mjd) ∧
      (∀ x ∈ l, x.altitude = toDeg (altitudeAt e o x.mjd body) ∧
        ∃ t0 t1 t2, a ≤ t0 ∧ t0 < t1 ∧ t1 < t2 ∧ t2 ≤ b ∧ t1 ≤ t0 + step ∧ t2 ≤ t1 + step ∧
          t0 ≤ x.mjd ∧ x.mjd ≤ t2 ∧
          ((x.kind = .maximum ∧ altitudeAt e o t0 body < altitudeAt e o t1 body ∧
              altitudeAt e o t2 body ≤ altitudeAt e o t1 body) ∨
           (x.kind = .minimum ∧ altitudeAt e o t1 body ≤ altitudeAt e o t0 body ∧
              altitudeAt e o t1 body < altitudeAt e o t2 body))) ∧
      ∀ m, a + step ≤ m → m + step ≤ b →
        (LocalPeak (fun t => altitudeAt e o t body) a b step m → ∃ x ∈ l, x.kind = .maximum ∧
          |x.mjd - m| ≤ max (tol / 2) (2 / 10 ^ 13 * (2 * step))) ∧
        (LocalValley (fun t => altitudeAt e o t body) a b step m → ∃ x ∈ l, x.kind = .minimum ∧
          |x.mjd - m| ≤ max (tol / 2) (2 / 10 ^ 13 * (2 * step))) := by
  have hst : 0 < (altitudeHint body).getD (20 / 1440) ∧
      (altitudeHint body).getD (20 / 1440) ≤ (2 / 24 : ℝ) := by
    cases body <;> simp only [altitudeHint, Option.getD_some, Option.getD_none] <;> norm_num
  have hal : (fun t => altitudeAtWithPolicy e o t .apparent body) = fun t => altitudeAt e o t body := by
    funext t; cases body <;> rfl
  refine ⟨_, hst.1, hst.2, ?_, ?_⟩
  · obtain ⟨n, hn⟩ := extrema_terminates a b ((altitudeHint body).getD (20 / 1440)) tol
      (fun t => altitudeAt e o t body)
    refine ⟨n, fun fuel hf => ?_⟩
    obtain ⟨l, hl⟩ := hn fuel hf
    unfold culminations
    rw [hal, hl]
    exact ⟨_, rfl⟩
  · intro fuel l h
    unfold culminations at h
    rw [hal, Option.map_eq_some_iff] at h
    obtain ⟨es, hes, rfl⟩ := h
    refine ⟨?_, ?_, ?_⟩
    · rw [List.pairwise_map]
      exact extrema_sorted _ _ _ _ _ _ hes
    · intro x hx
      obtain ⟨y, hy, rfl⟩ := List.mem_map.mp hx
      obtain ⟨hv, r⟩ := extrema_sound _ _ _ _ _ _ hes hy
      exact ⟨by simp only [hv], r⟩
    · intro m h1 h2
      constructor
      · intro hp
        obtain ⟨x, hx, hk, -, hm⟩ := extrema_peak_found_partial _ _ _ _ _ m _ hst.1 h1 h2 hp hes
        exact ⟨_, List.mem_map_of_mem hx, hk, hm⟩
      · intro hp
        obtain ⟨x, hx, hk, -, hm⟩ := extrema_valley_found_partial _ _ _ _ _ m _ hst.1 h1 h2 hp hes
        exact ⟨_, List.mem_map_of_mem hx, hk, hm⟩

/-- **C197.** A star and its direction have the same culminations. -/
theorem star_is_its_direction (fuel : Nat) (e : Engines Star Direction Planet Site) (s : Star)
    (o : Site) (a b tol : ℝ) :
    culminations fuel e (.star s) o a b tol = culminations fuel e (.direction (e.ofStar s)) o a b tol :=
  rfl

/-! ### Azimuth extrema of bodies -/

/-- **C198.** For the Sun, the Moon and the planets the azimuth must move less than half a turn in six
hours, for stars in an hour. -/
theorem body_azimuth_extrema (fuel : Nat) (e : Engines Star Direction Planet Site)
    (body : Body Star Direction Planet) (o : Site) {l : ℝ → ℝ} {a b : ℝ} (tol : ℝ)
    (hf : Follows (fun t => azimuthAt e o t body) l a b)
    (hslow : Slow l a b (match body with
      | .star _ | .direction _ => 1 / 24
      | _ => 6 / 24)) :
    azimuthExtrema fuel e body o a b tol =
      (findExtremaTol phi fuel a b (match body with
        | .star _ | .direction _ => 20 / 1440
        | _ => 2 / 24) l tol).map fun es =>
        es.map fun x => ⟨x.t, toDeg (azimuthAt e o x.t body), x.kind⟩ := by
  have hal : (fun t => azimuthAtWithPolicy e o t .apparent body) = fun t => azimuthAt e o t body := by
    funext t; cases body <;> rfl
  have key := azimuth_extrema_exact fuel (az := fun t => azimuthAt e o t body) (l := l) (a := a) (b := b)
    (step := (azimuthHint body).getD (20 / 1440)) tol hf (by
      refine cast (congrArg (Slow l a b) ?_) hslow
      cases body <;> simp only [azimuthHint, Option.getD_some, Option.getD_none] <;> norm_num)
  unfold azimuthExtrema
  rw [hal, key]
  cases body <;> rfl

/-! ### Policies and options -/

/-- **C199.** A star behaves as its direction: the azimuth, the altitude for every policy and the
azimuth periods for every query. -/
theorem star_direction_agree (alg : Event.PeriodAlgebra ℝ) (root : Event.RootFinder ℝ) (fuel : Nat)
    (e : Engines Star Direction Planet Site) (s : Star) (o : Site) (t : ℝ) (p : Policy)
    (q : Query Site) :
    azimuthAt e o t (.star s) = azimuthAt e o t (.direction (e.ofStar s)) ∧
    altitudeAtWithPolicy e o t p (.star s) = altitudeAtWithPolicy e o t p (.direction (e.ofStar s)) ∧
    azimuthPeriods alg root fuel e (.star s) q =
      azimuthPeriods alg root fuel e (.direction (e.ofStar s)) q :=
  ⟨rfl, rfl, rfl⟩

/-- **C199.** The azimuth and altitude without a policy are those with the apparent policy. -/
theorem default_policy (e : Engines Star Direction Planet Site) (o : Site) (t : ℝ)
    (b : Body Star Direction Planet) :
    azimuthAt e o t b = azimuthAtWithPolicy e o t .apparent b ∧
    altitudeAt e o t b = altitudeAtWithPolicy e o t .apparent b := by
  cases b <;> exact ⟨rfl, rfl⟩

/-- **C199.** An empty or reversed window has no azimuth periods. -/
theorem empty_window (alg : Event.PeriodAlgebra ℝ) (root : Event.RootFinder ℝ) (fuel : Nat)
    (e : Engines Star Direction Planet Site) (b : Body Star Direction Planet) (q : Query Site)
    (h : q.stop ≤ q.start) : azimuthPeriods alg root fuel e b q = some [] := by
  unfold azimuthPeriods
  exact if_pos (by linarith)

/-- **C199 (finding).** `azimuth_at_with_policy` of a star drops the policy, while its
`azimuth_periods`, its altitude and the azimuth of its direction honour it: star and direction agree
for all policies only if the policy never matters. -/
theorem star_azimuth_drops_policy (e : Engines Star Direction Planet Site) (s : Star) (o : Site)
    (t : ℝ) :
    (∀ p, azimuthAtWithPolicy e o t p (.star s) =
      azimuthAtWithPolicy e o t p (.direction (e.ofStar s))) ↔
    ∀ p, e.directionAz (e.ofStar s) o t p = e.directionAz (e.ofStar s) o t .apparent := by
  constructor
  · intro h p
    exact (h p).symm
  · intro h p
    exact (h p).symm

/-- It does matter: a star whose place of date is a quarter turn from its catalogue place. -/
example : ∃ (e : Engines Unit Unit Unit Unit) (p : Policy),
    azimuthAtWithPolicy e () 0 p (.star ()) ≠ azimuthAtWithPolicy e () 0 p (.direction ()) := by
  refine ⟨⟨fun _ _ => 0, fun _ _ => 0, fun _ _ _ => 0,
    fun _ _ _ p => if p = .geometric then 0 else Real.pi / 2, fun _ _ => 0, fun _ _ => 0,
    fun _ _ _ => 0, fun _ _ _ _ => 0, id⟩, .geometric, ?_⟩
  show (if Policy.apparent = .geometric then (0 : ℝ) else Real.pi / 2) ≠
    (if Policy.geometric = .geometric then 0 else Real.pi / 2)
  rw [if_neg (by decide), if_pos rfl]
  positivity

/-- **C199 (finding).** For the Sun, the Moon and the planets no policy changes any answer, and no
notice is given. -/
theorem solar_system_policy_ignored (e : Engines Star Direction Planet Site) (o : Site) (t : ℝ)
    (p : Policy) (b : Body Star Direction Planet)
    (hb : (∀ s, b ≠ .star s) ∧ ∀ d, b ≠ .direction d) :
    azimuthAtWithPolicy e o t p b = azimuthAt e o t b ∧
    altitudeAtWithPolicy e o t p b = altitudeAt e o t b := by
  cases b with
  | star s => exact absurd rfl (hb.1 s)
  | direction d => exact absurd rfl (hb.2 d)
  | _ => exact ⟨rfl, rfl⟩

/-- **C199 (finding).** The tolerance in the options does not reach the azimuth searches: crossings
and periods are the same for every tolerance. -/
theorem tolerance_ignored (alg : Event.PeriodAlgebra ℝ) (root : Event.RootFinder ℝ) (fuel : Nat)
    (e : Engines Star Direction Planet Site) (b : Body Star Direction Planet) (o : Site)
    (start stop bearing tol tol' : ℝ) (q : Query Site) :
    azimuthCrossings root fuel e b o start stop bearing tol =
      azimuthCrossings root fuel e b o start stop bearing tol' ∧
    azimuthPeriods alg root fuel e b { q with tolerance := tol } =
      azimuthPeriods alg root fuel e b { q with tolerance := tol' } :=
  ⟨rfl, by cases b <;> rfl⟩

/-- **C199.** The policy of a query does reach the periods of directions and stars: what is searched is
the azimuth with that policy. -/
theorem periods_use_policy (alg : Event.PeriodAlgebra ℝ) (root : Event.RootFinder ℝ) (fuel : Nat)
    (e : Engines Star Direction Planet Site) (d : Direction) (q : Query Site)
    (h : q.start < q.stop) :
    azimuthPeriods alg root fuel e (.direction d) q =
      Sky.azimuthRangePeriods alg root fuel q.start q.stop (10 / 1440)
        (fun t => e.directionAz d q.observer t q.policy) q.minAzimuth q.maxAzimuth := by
  unfold azimuthPeriods
  rw [if_neg (by linarith)]
  rfl

end Verif.Provider
