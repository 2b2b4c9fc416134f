import Verif.Stellar.Props
import Verif.Stellar.Search
import Verif.Event.Props
import Mathlib.Analysis.Real.Pi.Bounds

/-! Properties of the analytical star search: periods. -/
namespace Verif.Stellar.Props

open Spec Set Verif.Event Verif.Event.Spec
open Verif.Sky (toRad toDeg)

/-! ### The three verdicts -/

/-- C191: when the verdict is "always above" or "never above" and both ends of the window agree with
it, the whole window or nothing is reported. -/
theorem verdict_confirmed {sg : ℝ → Int} {root : RootFinder ℝ} {fuel : Nat} {sid : ℝ} {p : Params}
    {ha f : ℝ → ℝ} {a b thr : ℝ} :
    (thresholdHa p thr = .alwaysAbove → thr < f a → thr < f b →
      abovePeriods sg root fuel sid p ha f a b thr = some [(a, b)]) ∧
    (thresholdHa p thr = .neverAbove → f a ≤ thr → f b ≤ thr →
      abovePeriods sg root fuel sid p ha f a b thr = some []) := by
  constructor
  · intro h h1 h2
    unfold abovePeriods findAnalytical
    simp [h, h1, h2, buildAbovePeriods]
  · intro h h1 h2
    unfold abovePeriods findAnalytical
    simp [h, not_lt.mpr h1, not_lt.mpr h2, buildAbovePeriods]

/-- C191: when an end of the window contradicts the verdict, the answer is that of the plain threshold
search with a step of ten minutes (C16). -/
theorem verdict_contradicted {sg : ℝ → Int} {root : RootFinder ℝ} {fuel : Nat} {sid : ℝ} {p : Params}
    {ha f : ℝ → ℝ} {a b thr : ℝ} :
    (thresholdHa p thr = .alwaysAbove → f a ≤ thr ∨ f b ≤ thr →
      abovePeriods sg root fuel sid p ha f a b thr = aboveThresholdPeriods root fuel a b (1 / 144) f thr) ∧
    (thresholdHa p thr = .neverAbove → thr < f a ∨ thr < f b →
      abovePeriods sg root fuel sid p ha f a b thr = aboveThresholdPeriods root fuel a b (1 / 144) f thr) := by
  have hstep : scanStep = 1 / 144 := by unfold scanStep; norm_num
  constructor
  · intro h h1
    unfold abovePeriods findAnalytical
    simp only [h]
    rw [if_neg]
    · unfold fallback aboveThresholdPeriods
      rw [hstep, Option.map_map, Option.map_map]
      rfl
    · simp only [Bool.and_eq_true, decide_eq_true_eq, not_and, not_lt, gt_iff_lt]
      intro h2
      rcases h1 with h1 | h1
      · linarith
      · exact h1
  · intro h h1
    unfold abovePeriods findAnalytical
    simp only [h]
    rw [if_neg]
    · unfold fallback aboveThresholdPeriods
      rw [hstep, Option.map_map, Option.map_map]
      rfl
    · simp only [Bool.and_eq_true, Bool.not_eq_true', decide_eq_false_iff_not, not_and, not_lt, gt_iff_lt, not_le]
      intro h2
      rcases h1 with h1 | h1
      · linarith
      · exact h1

/-- C191 (partial: visits or gaps shorter than the bracket and contacts near the ends of the window are
excluded, see `short_visit_missed`): if each crossing of the window is predicted within `ε` less than a
quarter of an hour, in order, and no two crossings are closer than a quarter of an hour plus `ε`, the
periods are exact up to the tolerance of the root refinement. -/
theorem above_exact_partial {sg : ℝ → Int} (hsg : RootFinding.Spec.IsSignum sg) {root : RootFinder ℝ} {fuel : Nat} {sid : ℝ}
    {p : Params} {ha f : ℝ → ℝ} {a b thr tol ε h0 : ℝ} (hh : thresholdHa p thr = .crossings h0)
    {predicted : List (ℝ × Int)} (hpred : predictCrossings fuel sid (ha a) a b h0 = some predicted)
    {zs : List ℝ} (hz : ∀ z ∈ Icc a b, f z = thr ↔ z ∈ zs)
    (hcr : ∀ z ∈ zs, Crosses (fun t => f t - thr) z)
    (hclose : List.Forall₂ (fun q z => |q.1 - z| ≤ ε) predicted zs) (hε : ε < 15 / 1440)
    (hs : zs.Pairwise (fun x y => 15 / 1440 + ε < y - x)) (hε0 : 0 ≤ ε)
    (hab : a + 2 / 10 ^ 7 ≤ b) (htol : 0 ≤ tol) (hprobe : 2 * tol < 1 / 10 ^ 7)
    (hc : ContinuousOn f (Icc a b))
    (hin : ∀ z ∈ zs, a + 2 / 10 ^ 7 + tol ≤ z ∧ z ≤ b - 2 / 10 ^ 7 - tol)
    (hacc : Accurate root (fun t => f t - thr) a b tol) :
    ∃ ps, abovePeriods sg root fuel sid p ha f a b thr = some ps ∧ WellFormed a b ps ∧
      ∀ t ∈ Icc a b, (∀ z ∈ Icc a b, f z = thr → tol < |t - z|) → (InSome ps t ↔ f t > thr) := by
  have hp : (2 / 10 ^ 7 : ℝ) = 2 * probeDt := by unfold probeDt; ring
  have hgc : ContinuousOn (fun t => f t - thr) (Icc a b) := hc.sub continuousOn_const
  have hinI : ∀ z ∈ zs, z ∈ Icc a b := fun z hz' =>
    ⟨by linarith [(hin z hz').1, show (0 : ℝ) < 2 / 10 ^ 7 by norm_num],
     by linarith [(hin z hz').2, show (0 : ℝ) < 2 / 10 ^ 7 by norm_num]⟩
  have hfar : ∀ z ∈ zs, ∀ z' ∈ zs, z' ≠ z → 15 / 1440 + ε < |z' - z| := by
    intro z hz1 z' hz2 hne
    obtain ⟨i, hi, rfl⟩ := List.getElem_of_mem hz1
    obtain ⟨j, hj, rfl⟩ := List.getElem_of_mem hz2
    rw [List.pairwise_iff_getElem] at hs
    rcases lt_trichotomy i j with h | h | h
    · have := hs i j hi hj h
      rw [lt_abs]; left; exact this
    · subst h; exact absurd rfl hne
    · have := hs j i hj hi h
      rw [lt_abs]; right; linarith
  have hall : ∀ q, ∀ z ∈ zs, |q - z| ≤ ε →
      ∃ r, refine sg root (fun t => f t - thr) a b q = some r ∧ |r - z| ≤ tol := by
    intro q z hz' hq
    have h1 := hin z hz'
    have h2 : (1 : ℝ) / 10 ^ 7 < 2 / 10 ^ 7 := by norm_num
    refine refine_near hsg hgc hacc hε hq (by linarith) (by linarith) ?_ (hcr z hz') ?_
    · have := (hz z (hinI z hz')).mpr hz'
      simp only [this, sub_self]
    · intro z' hz1 hz2 hne
      exact hfar z hz' z' ((hz z' hz1).mp (by have : f z' - thr = 0 := hz2; linarith)) hne
  have hnear := refine_all hclose hall
  have key := periods_of_roots f thr a b tol _ zs (by rw [← hp]; exact hab) htol (by unfold probeDt; exact hprobe)
    hgc (hs.imp (fun {x y} h => by
      have h1 : 2 * probeDt + 2 * tol ≤ 15 / 1440 := by
        unfold probeDt; linarith [show (3 : ℝ) * (1 / 10 ^ 7) ≤ 15 / 1440 by norm_num]
      linarith))
    (fun z hz' => by rw [← hp]; exact hin z hz') hz hcr hnear
  refine ⟨_, ?_, key⟩
  unfold abovePeriods findAnalytical
  simp only [hh, hpred, Option.map_some]

/-! ### A star turning uniformly -/

/-- The altitude of a star turning uniformly: hour angle `ha` degrees at `a`, one turn in `sid`. -/
noncomputable def uniformAlt (p : Params) (ha a sid t : ℝ) : ℝ :=
  Real.arcsin (p.a + p.b * Real.cos (toRad (turning ha a sid t)))

/-- What is needed of the parameters of a star that rises and sets: a real site and a real star, not at
a pole. -/
structure Rising (p : Params) (thr h0 : ℝ) : Prop where
  amplitude : 0 < p.b
  upper : p.a + p.b ≤ 1
  lower : -1 ≤ p.a - p.b
  thr_lo : -(Real.pi / 2) ≤ thr
  thr_hi : thr ≤ Real.pi / 2
  verdict : thresholdHa p thr = .crossings h0

theorem rising_h0 {p : Params} {thr h0 : ℝ} (h : Rising p thr h0) :
    0 < h0 ∧ h0 < Real.pi ∧ ∀ H, p.a + p.b * Real.cos H - Real.sin thr = p.b * (Real.cos H - Real.cos h0) := by
  have hv := h.verdict
  have hb := h.amplitude
  unfold thresholdHa at hv
  simp only at hv
  split at hv
  · split at hv <;> cases hv
  split at hv
  · cases hv
  split at hv
  · cases hv
  rename_i h1 h2 h3
  cases hv
  push Not at h2 h3
  refine ⟨Real.arccos_pos.mpr h3, ?_, ?_⟩
  · rcases (Real.arccos_le_pi ((Real.sin thr - p.a) / p.b)).lt_or_eq with h | h
    · exact h
    · have := Real.arccos_eq_pi.mp h; linarith
  · intro H
    rw [Real.cos_arccos h2.le h3.le, mul_sub, mul_div_cancel₀ _ hb.ne']
    ring

theorem uniform_sign {p : Params} {thr h0 : ℝ} (h : Rising p thr h0) (ha a sid t : ℝ) :
    (uniformAlt p ha a sid t < thr ↔ Real.cos (toRad (turning ha a sid t)) < Real.cos h0) ∧
    (thr < uniformAlt p ha a sid t ↔ Real.cos h0 < Real.cos (toRad (turning ha a sid t))) ∧
    (uniformAlt p ha a sid t = thr ↔ Real.cos (toRad (turning ha a sid t)) = Real.cos h0) := by
  obtain ⟨_, _, hkey⟩ := rising_h0 h
  unfold uniformAlt
  generalize toRad (turning ha a sid t) = H
  have hk := hkey H
  have hb := h.amplitude
  have hr : p.a + p.b * Real.cos H ∈ Icc (-1 : ℝ) 1 := by
    have h1 := Real.cos_le_one H
    have h2 := Real.neg_one_le_cos H
    have h3 := h.upper
    have h4 := h.lower
    constructor <;> nlinarith
  have hle : thr ≤ Real.arcsin (p.a + p.b * Real.cos H) ↔ Real.cos h0 ≤ Real.cos H := by
    rw [Real.le_arcsin_iff_sin_le ⟨h.thr_lo, h.thr_hi⟩ hr]
    constructor
    · intro h; by_contra hh; nlinarith
    · intro h; nlinarith
  have hge : Real.arcsin (p.a + p.b * Real.cos H) ≤ thr ↔ Real.cos H ≤ Real.cos h0 := by
    rw [Real.arcsin_le_iff_le_sin hr ⟨h.thr_lo, h.thr_hi⟩]
    constructor
    · intro h; by_contra hh; nlinarith
    · intro h; nlinarith
  refine ⟨?_, ?_, ?_⟩
  · rw [← not_le, hle, not_le]
  · rw [← not_le, hge, not_le]
  · rw [le_antisymm_iff, hge, hle, le_antisymm_iff]

theorem phase_add (ha a sid t s : ℝ) :
    toRad (turning ha a sid (t + s)) = toRad (turning ha a sid t) + 2 * Real.pi * s / sid := by
  unfold toRad turning
  ring

/-- Cosines agree exactly when the angles agree up to sign and whole turns. -/
theorem angle_iff (x h0 : ℝ) : Real.cos (toRad x) = Real.cos h0 ↔
    SameAngle x (-(h0 * (180 / Real.pi))) ∨ SameAngle x (h0 * (180 / Real.pi)) := by
  have hpi := Real.pi_ne_zero
  rw [Real.cos_eq_cos_iff]
  unfold SameAngle toRad
  constructor
  · rintro ⟨k, h | h⟩
    · right; refine ⟨-k, ?_⟩; rw [h]; push_cast; field_simp; ring
    · left; refine ⟨k, ?_⟩; rw [h]; push_cast; field_simp; ring
  · rintro (⟨k, h⟩ | ⟨k, h⟩)
    · refine ⟨k, Or.inr ?_⟩
      have hx : x = 360 * k - h0 * (180 / Real.pi) := by linarith
      rw [hx]; field_simp; ring
    · refine ⟨-k, Or.inl ?_⟩
      have hx : x = 360 * k + h0 * (180 / Real.pi) := by linarith
      rw [hx]; push_cast; field_simp; ring

theorem cos_outside {h0 x : ℝ} (h : 0 < h0) (h1 : h0 < x) (h2 : x < 2 * Real.pi - h0) :
    Real.cos x < Real.cos h0 := by
  rcases le_total x Real.pi with hx | hx
  · exact Real.cos_lt_cos_of_nonneg_of_le_pi h.le hx h1
  · rw [← Real.cos_two_pi_sub x]
    exact Real.cos_lt_cos_of_nonneg_of_le_pi h.le (by linarith) (by linarith)

/-- Instants with the cosine of `h0`, up to whole turns. -/
theorem phase_cases {θ h0 : ℝ} (h : Real.cos θ = Real.cos h0) :
    (∃ k : ℤ, θ = h0 + k * (2 * Real.pi)) ∨ ∃ k : ℤ, θ = -h0 + k * (2 * Real.pi) := by
  rw [Real.cos_eq_cos_iff] at h
  obtain ⟨k, h | h⟩ := h
  · left; exact ⟨-k, by push_cast; linarith⟩
  · right; exact ⟨k, by linarith⟩

theorem uniform_crosses {p : Params} {thr h0 : ℝ} (h : Rising p thr h0) {ha a sid : ℝ} (hs : 0 < sid) {z : ℝ}
    (hz : uniformAlt p ha a sid z = thr) : Crosses (fun t => uniformAlt p ha a sid t - thr) z := by
  obtain ⟨h1, h2, _⟩ := rising_h0 h
  have hpi := Real.pi_pos
  refine ⟨sid / (2 * Real.pi) * min h0 (Real.pi - h0), ?_, ?_⟩
  · have : 0 < min h0 (Real.pi - h0) := lt_min h1 (by linarith)
    positivity
  · intro s hs0 hsδ
    have hx0 : 0 < 2 * Real.pi * s / sid := by positivity
    have hx : 2 * Real.pi * s / sid < min h0 (Real.pi - h0) := by
      rw [div_lt_iff₀ hs]
      have e : sid / (2 * Real.pi) * min h0 (Real.pi - h0) * (2 * Real.pi) = min h0 (Real.pi - h0) * sid := by
        field_simp
      nlinarith
    have hx1 := lt_of_lt_of_le hx (min_le_left _ _)
    have hx2 := lt_of_lt_of_le hx (min_le_right _ _)
    have hm := phase_add ha a sid z (-s)
    have hp := phase_add ha a sid z s
    rw [← sub_eq_add_neg] at hm
    have hxm : 2 * Real.pi * -s / sid = -(2 * Real.pi * s / sid) := by ring
    rw [hxm] at hm
    have hlt : Real.cos (h0 + 2 * Real.pi * s / sid) < Real.cos h0 :=
      Real.cos_lt_cos_of_nonneg_of_le_pi h1.le (by linarith) (by linarith)
    have hgt : Real.cos h0 < Real.cos (h0 - 2 * Real.pi * s / sid) :=
      Real.cos_lt_cos_of_nonneg_of_le_pi (by linarith) h2.le (by linarith)
    have s1 := uniform_sign h ha a sid (z - s)
    have s2 := uniform_sign h ha a sid (z + s)
    rw [hm] at s1
    rw [hp] at s2
    rcases phase_cases ((uniform_sign h ha a sid z).2.2.mp hz) with ⟨k, hk⟩ | ⟨k, hk⟩
    · right
      rw [hk] at s1 s2
      have e1 : h0 + k * (2 * Real.pi) + -(2 * Real.pi * s / sid) = (h0 - 2 * Real.pi * s / sid) + k * (2 * Real.pi) := by ring
      have e2 : h0 + k * (2 * Real.pi) + 2 * Real.pi * s / sid = (h0 + 2 * Real.pi * s / sid) + k * (2 * Real.pi) := by ring
      rw [e1, Real.cos_add_int_mul_two_pi] at s1
      rw [e2, Real.cos_add_int_mul_two_pi] at s2
      exact ⟨by linarith [s1.2.1.mpr hgt], by linarith [s2.1.mpr hlt]⟩
    · left
      rw [hk] at s1 s2
      have e1 : -h0 + k * (2 * Real.pi) + -(2 * Real.pi * s / sid) = -(h0 + 2 * Real.pi * s / sid) + k * (2 * Real.pi) := by ring
      have e2 : -h0 + k * (2 * Real.pi) + 2 * Real.pi * s / sid = -(h0 - 2 * Real.pi * s / sid) + k * (2 * Real.pi) := by ring
      rw [e1, Real.cos_add_int_mul_two_pi, Real.cos_neg] at s1
      rw [e2, Real.cos_add_int_mul_two_pi, Real.cos_neg] at s2
      exact ⟨by linarith [s1.1.mpr hlt], by linarith [s2.2.1.mpr hgt]⟩

theorem uniform_separated {p : Params} {thr h0 : ℝ} (h : Rising p thr h0) {ha a sid d : ℝ} (hs : 0 < sid)
    (hv : d < sid * (h0 / Real.pi)) (hg : d < sid * (1 - h0 / Real.pi)) {t t' : ℝ} (htt : t < t')
    (h1 : uniformAlt p ha a sid t = thr) (h2 : uniformAlt p ha a sid t' = thr) : d < t' - t := by
  obtain ⟨h3, h4, _⟩ := rising_h0 h
  have hpi := Real.pi_pos
  have hadd := phase_add ha a sid t (t' - t)
  rw [show t + (t' - t) = t' by ring] at hadd
  have c1 := phase_cases ((uniform_sign h ha a sid t).2.2.mp h1)
  have c2 := phase_cases ((uniform_sign h ha a sid t').2.2.mp h2)
  have hpos : 0 < 2 * Real.pi * (t' - t) / sid := by
    have : 0 < t' - t := by linarith
    positivity
  -- the turn is at least the visit or the gap
  have hturn : 2 * h0 ≤ 2 * Real.pi * (t' - t) / sid ∨ 2 * Real.pi - 2 * h0 ≤ 2 * Real.pi * (t' - t) / sid := by
    generalize 2 * Real.pi * (t' - t) / sid = D at *
    have hint : ∀ m : ℤ, m ≤ -1 → (m : ℝ) * (2 * Real.pi) ≤ -(2 * Real.pi) := by
      intro m hm
      have : (m : ℝ) ≤ -1 := by exact_mod_cast hm
      nlinarith
    have hnn : ∀ m : ℤ, 0 ≤ m → 0 ≤ (m : ℝ) * (2 * Real.pi) := by
      intro m hm
      have : (0 : ℝ) ≤ m := by exact_mod_cast hm
      positivity
    have hone : ∀ m : ℤ, 1 ≤ m → 2 * Real.pi ≤ (m : ℝ) * (2 * Real.pi) := by
      intro m hm
      have : (1 : ℝ) ≤ m := by exact_mod_cast hm
      nlinarith
    rcases c1 with ⟨k, hk⟩ | ⟨k, hk⟩ <;> rcases c2 with ⟨k', hk'⟩ | ⟨k', hk'⟩
    · have hD : D = ((k' - k : ℤ) : ℝ) * (2 * Real.pi) := by push_cast; linarith
      have : 1 ≤ k' - k := by
        by_contra hc
        rcases lt_or_eq_of_le (show k' - k ≤ 0 by omega) with h | h
        · have := hint (k' - k) (by omega); linarith
        · rw [h] at hD; simp at hD; linarith
      have := hone _ this
      right; linarith
    · have hD : D = ((k' - k : ℤ) : ℝ) * (2 * Real.pi) - 2 * h0 := by push_cast; linarith
      have : 1 ≤ k' - k := by
        by_contra hc
        rcases lt_or_eq_of_le (show k' - k ≤ 0 by omega) with h | h
        · have := hint (k' - k) (by omega); linarith
        · rw [h] at hD; simp at hD; linarith
      have := hone _ this
      right; linarith
    · have hD : D = ((k' - k : ℤ) : ℝ) * (2 * Real.pi) + 2 * h0 := by push_cast; linarith
      have : 0 ≤ k' - k := by
        by_contra hc
        have := hint (k' - k) (by omega); linarith
      have := hnn _ this
      left; linarith
    · have hD : D = ((k' - k : ℤ) : ℝ) * (2 * Real.pi) := by push_cast; linarith
      have : 1 ≤ k' - k := by
        by_contra hc
        rcases lt_or_eq_of_le (show k' - k ≤ 0 by omega) with h | h
        · have := hint (k' - k) (by omega); linarith
        · rw [h] at hD; simp at hD; linarith
      have := hone _ this
      right; linarith
  rcases hturn with h5 | h5
  · refine lt_of_lt_of_le hv ?_
    rw [le_div_iff₀ hs] at h5
    rw [mul_div_assoc', div_le_iff₀ hpi]
    linarith
  · refine lt_of_lt_of_le hg ?_
    rw [le_div_iff₀ hs] at h5
    have : sid * (1 - h0 / Real.pi) = (sid * (Real.pi - h0)) / Real.pi := by field_simp
    rw [this, div_le_iff₀ hpi]
    linarith

theorem uniform_continuous (p : Params) (ha a sid : ℝ) : Continuous (uniformAlt p ha a sid) := by
  unfold uniformAlt toRad turning
  fun_prop

/-- C191 for a star turning uniformly: if both the visit above the threshold and the absence below it
last longer than a quarter of an hour and no crossing lies within 2e-7 day (plus the tolerance) of an
end of the window, the analytical search answers, and the periods are exact up to the tolerance. -/
theorem uniform_exact {sg : ℝ → Int} (hsg : RootFinding.Spec.IsSignum sg) {root : RootFinder ℝ} {sid : ℝ}
    {p : Params} {ha : ℝ → ℝ} {a b thr tol h0 : ℝ} (hr : Rising p thr h0) (hs : 1 / 10 ^ 12 < sid)
    (hvisit : 15 / 1440 < sid * (h0 / Real.pi)) (hgap : 15 / 1440 < sid * (1 - h0 / Real.pi))
    (hab : a + 2 / 10 ^ 7 ≤ b) (htol : 0 ≤ tol) (hprobe : 2 * tol < 1 / 10 ^ 7)
    (hedge : ∀ t, |t - a| < 2 / 10 ^ 7 + tol ∨ |t - b| < 2 / 10 ^ 7 + tol → uniformAlt p (ha a) a sid t ≠ thr)
    (hacc : Accurate root (fun t => uniformAlt p (ha a) a sid t - thr) a b tol) :
    ∃ n₀, ∀ fuel ≥ n₀, ∃ ps,
      abovePeriods sg root fuel sid p ha (uniformAlt p (ha a) a sid) a b thr = some ps ∧ WellFormed a b ps ∧
      ∀ t ∈ Icc a b, (∀ z ∈ Icc a b, uniformAlt p (ha a) a sid z = thr → tol < |t - z|) →
        (InSome ps t ↔ thr < uniformAlt p (ha a) a sid t) := by
  have hs0 : 0 < sid := lt_trans (by norm_num) hs
  obtain ⟨n₀, hn₀⟩ := predict_ends hs0 (ha a) a b h0
  refine ⟨n₀, fun fuel hf => ?_⟩
  obtain ⟨l, hl⟩ := hn₀ fuel hf
  obtain ⟨hmem, hnodup, hsort⟩ := predict_exact hs hl
  set f := uniformAlt p (ha a) a sid with hfdef
  have hzero : ∀ t, f t = thr ↔ SameAngle (turning (ha a) a sid t) (-(h0 * (180 / Real.pi))) ∨
      SameAngle (turning (ha a) a sid t) (h0 * (180 / Real.pi)) := by
    intro t
    rw [← angle_iff]
    exact (uniform_sign hr (ha a) a sid t).2.2
  have hmem' : ∀ t d, (t, d) ∈ l → t ∈ Icc a b ∧
      ((d = 1 ∧ SameAngle (turning (ha a) a sid t) (-(h0 * (180 / Real.pi)))) ∨
       (d = -1 ∧ SameAngle (turning (ha a) a sid t) (h0 * (180 / Real.pi)))) := by
    intro t d htd
    obtain ⟨t', h1, h2, h3, h4⟩ := (hmem t d).mp htd
    have hft : f t' = thr := (hzero t').mpr (by rcases h4 with ⟨_, h⟩ | ⟨_, h⟩ <;> simp [h])
    have htb : t' ≤ b := by
      by_contra hc
      refine hedge t' (Or.inr ?_) hft
      rw [abs_of_pos (by linarith)]
      have : (1 : ℝ) / 10 ^ 12 < 2 / 10 ^ 7 := by norm_num
      linarith
    rw [min_eq_left htb] at h3
    subst h3
    exact ⟨⟨h1, htb⟩, h4⟩
  have hin : ∀ z ∈ l.map (·.1), z ∈ Icc a b ∧ f z = thr := by
    intro z hz
    obtain ⟨⟨t, d⟩, htd, rfl⟩ := List.mem_map.mp hz
    obtain ⟨h1, h2⟩ := hmem' t d htd
    exact ⟨h1, (hzero t).mpr (by rcases h2 with ⟨_, h⟩ | ⟨_, h⟩ <;> simp [h])⟩
  refine above_exact_partial hsg (ε := 0) (tol := tol) hr.verdict hl (zs := l.map (·.1)) ?_ ?_ ?_ (by norm_num) ?_ le_rfl hab
    htol hprobe (uniform_continuous p (ha a) a sid).continuousOn ?_ hacc
  · intro z hz
    refine ⟨fun h => ?_, fun h => (hin z h).2⟩
    rcases (hzero z).mp h with h | h
    · exact List.mem_map.mpr ⟨(z, 1), (hmem z 1).mpr ⟨z, hz.1, by linarith [hz.2, show (0:ℝ) < 1 / 10 ^ 12 by norm_num],
        (min_eq_left hz.2).symm, Or.inl ⟨rfl, h⟩⟩, rfl⟩
    · exact List.mem_map.mpr ⟨(z, -1), (hmem z (-1)).mpr ⟨z, hz.1, by linarith [hz.2, show (0:ℝ) < 1 / 10 ^ 12 by norm_num],
        (min_eq_left hz.2).symm, Or.inr ⟨rfl, h⟩⟩, rfl⟩
  · intro z hz
    exact uniform_crosses hr hs0 (hin z hz).2
  · rw [List.forall₂_map_right_iff]
    simp [List.forall₂_same]
  · rw [List.pairwise_map]
    have := hsort.and hnodup
    refine this.imp_of_mem ?_
    rintro ⟨t, d⟩ ⟨t', d'⟩ h1 h2 ⟨h3, h4⟩
    simp only at h3
    have z1 := hin t (List.mem_map.mpr ⟨_, h1, rfl⟩)
    have z2 := hin t' (List.mem_map.mpr ⟨_, h2, rfl⟩)
    rcases h3.lt_or_eq with h5 | h5
    · simp only [add_zero]
      exact uniform_separated hr hs0 hvisit hgap h5 z1.2 z2.2
    · exfalso
      subst h5
      have hne : d ≠ d' := fun h => h4 (by rw [h])
      obtain ⟨g1, g2, _⟩ := rising_h0 hr
      have hpi := Real.pi_pos
      have hclash : SameAngle (turning (ha a) a sid t) (-(h0 * (180 / Real.pi))) →
          SameAngle (turning (ha a) a sid t) (h0 * (180 / Real.pi)) → False := by
        rintro ⟨k, hk⟩ ⟨k', hk'⟩
        have e : h0 * (180 / Real.pi) = 180 * ((k - k' : ℤ) : ℝ) := by push_cast; linarith
        have e1 : 0 < h0 * (180 / Real.pi) := by positivity
        have e2 : h0 * (180 / Real.pi) < 180 := by
          rw [mul_div_assoc', div_lt_iff₀ hpi]; linarith
        rw [e] at e1 e2
        have e3 : (0 : ℝ) < ((k - k' : ℤ) : ℝ) := by linarith
        have e4 : ((k - k' : ℤ) : ℝ) < 1 := by linarith
        have e5 : 0 < k - k' := by exact_mod_cast e3
        have e6 : k - k' < 1 := by exact_mod_cast e4
        omega
      rcases (hmem' t d h1).2 with ⟨r1, r2⟩ | ⟨r1, r2⟩ <;> rcases (hmem' t d' h2).2 with ⟨r3, r4⟩ | ⟨r3, r4⟩
      · exact hne (by rw [r1, r3])
      · exact hclash r2 r4
      · exact hclash r4 r2
      · exact hne (by rw [r1, r3])
  · intro z hz
    obtain ⟨h1, h2⟩ := hin z hz
    constructor
    · by_contra hc
      exact hedge z (Or.inl (by rw [abs_of_nonneg (by linarith [h1.1])]; linarith)) h2
    · by_contra hc
      exact hedge z (Or.inr (by rw [abs_of_nonpos (by linarith [h1.2])]; linarith)) h2

/-- FINDING (C191): a visit above the threshold of at most a quarter of an hour is never reported: both
brackets of a quarter of an hour around its predicted ends reach over the whole visit, so neither shows
a change of sign. -/
theorem short_visit_missed {sg : ℝ → Int} (hsg : RootFinding.Spec.IsSignum sg) {root : RootFinder ℝ} {fuel : Nat}
    {sid : ℝ} {p : Params} {ha : ℝ → ℝ} {a b thr h0 : ℝ} (hr : Rising p thr h0) (hs : 1 / 10 < sid)
    (hvisit : sid * (h0 / Real.pi) < 15 / 1440)
    (hstart : uniformAlt p (ha a) a sid a < thr) (hstop : uniformAlt p (ha a) a sid b < thr)
    {ps : List (ℝ × ℝ)} (h : abovePeriods sg root fuel sid p ha (uniformAlt p (ha a) a sid) a b thr = some ps) :
    ps = [] := by
  have hs0 : 0 < sid := lt_trans (by norm_num) hs
  obtain ⟨h1, h2, _⟩ := rising_h0 hr
  have hpi := Real.pi_pos
  unfold abovePeriods findAnalytical at h
  simp only [hr.verdict] at h
  obtain ⟨r, hr1, rfl⟩ := Option.map_eq_some_iff.mp h
  obtain ⟨l, hl, rfl⟩ := Option.map_eq_some_iff.mp hr1
  obtain ⟨hmem, _, _⟩ := predict_exact (lt_trans (by norm_num) hs) hl
  -- the turn in a quarter of an hour
  have hq : 2 * h0 < 2 * Real.pi * (15 / 1440) / sid := by
    rw [lt_div_iff₀ hs0]
    rw [mul_div_assoc', div_lt_iff₀ hpi] at hvisit
    linarith
  have hq2 : 2 * Real.pi * (15 / 1440) / sid < Real.pi / 2 := by
    rw [div_lt_iff₀ hs0]; nlinarith
  have hη : ∀ η, 0 ≤ η → η ≤ 1 / 10 ^ 12 → 0 ≤ 2 * Real.pi * η / sid ∧ 2 * Real.pi * η / sid < Real.pi / 2 := by
    intro η e1 e2
    refine ⟨by positivity, ?_⟩
    rw [div_lt_iff₀ hs0]
    have : (1 : ℝ) / 10 ^ 12 < 1 / 100 := by norm_num
    nlinarith
  have hnone : ∀ q ∈ l, refine sg root (fun t => uniformAlt p (ha a) a sid t - thr) a b q.1 = none := by
    rintro ⟨t, d⟩ htd
    obtain ⟨t', e1, e2, e3, e4⟩ := (hmem t d).mp htd
    have hcos : Real.cos (toRad (turning (ha a) a sid t')) = Real.cos h0 := by
      rw [angle_iff]; rcases e4 with ⟨_, h⟩ | ⟨_, h⟩ <;> simp [h]
    have hcases := phase_cases hcos
    obtain ⟨η, hη0, hη1, htη⟩ : ∃ η, 0 ≤ η ∧ η ≤ 1 / 10 ^ 12 ∧ t = t' + -η := by
      refine ⟨t' - t, ?_, ?_, by ring⟩
      · rw [e3]; linarith [min_le_left t' b]
      · rw [e3]
        rcases min_cases t' b with ⟨h, _⟩ | ⟨h, _⟩ <;> rw [h]
        · norm_num
        · linarith
    obtain ⟨hw0, hw1⟩ := hη η hη0 hη1
    have hB : bracketHalf = 15 / 1440 := rfl
    -- below at the left end
    have hlo : uniformAlt p (ha a) a sid (bracketLo a t) - thr < 0 := by
      rw [bracketLo_eq]
      rcases max_cases (t - bracketHalf) a with ⟨h, _⟩ | ⟨h, _⟩ <;> rw [h]
      · have : uniformAlt p (ha a) a sid (t - bracketHalf) < thr := by
          rw [(uniform_sign hr (ha a) a sid _).1, htη, hB,
            show t' + -η - 15 / 1440 = t' + -(η + 15 / 1440) by ring, phase_add]
          have ew : 2 * Real.pi * -(η + 15 / 1440) / sid
              = -(2 * Real.pi * η / sid) - 2 * Real.pi * (15 / 1440) / sid := by ring
          rw [ew]
          generalize 2 * Real.pi * η / sid = w at *
          generalize 2 * Real.pi * (15 / 1440) / sid = v at *
          rcases hcases with ⟨k, hk⟩ | ⟨k, hk⟩
          · rw [hk, show h0 + k * (2 * Real.pi) + (-w - v) = -(v + w - h0) + k * (2 * Real.pi) by ring,
              Real.cos_add_int_mul_two_pi, Real.cos_neg]
            exact cos_outside h1 (by linarith) (by linarith)
          · rw [hk, show -h0 + k * (2 * Real.pi) + (-w - v) = -(v + w + h0) + k * (2 * Real.pi) by ring,
              Real.cos_add_int_mul_two_pi, Real.cos_neg]
            exact cos_outside h1 (by linarith) (by linarith)
        linarith
      · linarith
    have hhi : uniformAlt p (ha a) a sid (bracketHi b t) - thr < 0 := by
      rw [bracketHi_eq]
      rcases min_cases (t + bracketHalf) b with ⟨h, hle⟩ | ⟨h, _⟩ <;> rw [h]
      · have htb : t' ≤ b := by
          by_contra hc
          rw [min_eq_right (by linarith)] at e3
          rw [hB] at hle
          linarith
        have htt : t = t' := by rw [e3, min_eq_left htb]
        have : uniformAlt p (ha a) a sid (t + bracketHalf) < thr := by
          rw [(uniform_sign hr (ha a) a sid _).1, htt, hB, phase_add]
          generalize 2 * Real.pi * (15 / 1440) / sid = v at *
          rcases hcases with ⟨k, hk⟩ | ⟨k, hk⟩
          · rw [hk, show h0 + k * (2 * Real.pi) + v = (h0 + v) + k * (2 * Real.pi) by ring,
              Real.cos_add_int_mul_two_pi]
            exact cos_outside h1 (by linarith) (by linarith)
          · rw [hk, show -h0 + k * (2 * Real.pi) + v = (v - h0) + k * (2 * Real.pi) by ring,
              Real.cos_add_int_mul_two_pi]
            exact cos_outside h1 (by linarith) (by linarith)
        linarith
      · linarith
    unfold refine
    simp only
    split
    · rfl
    · rw [if_neg]
      rw [hsg.2 _ hlo, hsg.2 _ hhi]
      norm_num
  have hempty : (l.filterMap fun q => refine sg root (fun t => uniformAlt p (ha a) a sid t - thr) a b q.1) = [] :=
    List.filterMap_eq_nil_iff.mpr hnone
  simp only [hempty]
  have : labelCrossings ([] : List ℝ) (uniformAlt p (ha a) a sid) thr = [] := by
    unfold labelCrossings
    simp [dedupBy]
  rw [this]
  simp [buildAbovePeriods, not_lt.mpr hstart.le]

/-! ### Concrete cases -/

/-- A star on the celestial equator seen from the equator, at a threshold `π/2 - x`. -/
theorem equator_rising {x : ℝ} (h0 : 0 < x) (h1 : x < Real.pi) : Rising ⟨0, 1, 0, 0⟩ (Real.pi / 2 - x) x where
  amplitude := by norm_num
  upper := by norm_num
  lower := by norm_num
  thr_lo := by linarith
  thr_hi := by linarith
  verdict := by
    unfold thresholdHa degenerateEps
    have e1 : Real.cos x < 1 := by
      rw [← Real.cos_zero]; exact Real.cos_lt_cos_of_nonneg_of_le_pi le_rfl h1.le h0
    have e2 : -1 < Real.cos x := by
      rw [← Real.cos_pi]; exact Real.cos_lt_cos_of_nonneg_of_le_pi h0.le le_rfl h1
    simp only [Real.sin_pi_div_two_sub, sub_zero, div_one]
    rw [if_neg (by norm_num), if_neg (not_le.mpr e2), if_neg (not_le.mpr e1), Real.arccos_cos h0.le h1.le]

/-- The finding on a concrete star: it culminates in the zenith in the middle of the window, stays above
89.1° for about seven minutes, and no period is reported. -/
theorem short_visit_example {sg : ℝ → Int} (hsg : RootFinding.Spec.IsSignum sg) (root : RootFinder ℝ) :
    (∀ fuel ps, abovePeriods sg root fuel 1 ⟨0, 1, 0, 0⟩ (fun _ => -90) (uniformAlt ⟨0, 1, 0, 0⟩ (-90) 0 1) 0 (1 / 2)
      (Real.pi / 2 - Real.pi / 200) = some ps → ps = []) ∧
    Real.pi / 2 - Real.pi / 200 < uniformAlt ⟨0, 1, 0, 0⟩ (-90) 0 1 (1 / 4) := by
  have hpi := Real.pi_pos
  have hr : Rising ⟨0, 1, 0, 0⟩ (Real.pi / 2 - Real.pi / 200) (Real.pi / 200) := equator_rising (by positivity) (by linarith)
  have e : ∀ t, toRad (turning (-90) 0 1 t) = 2 * Real.pi * t - Real.pi / 2 := by
    intro t; unfold toRad turning; field_simp; ring
  constructor
  · intro fuel ps h
    refine short_visit_missed (ha := fun _ => -90) hsg hr (by norm_num) ?_ ?_ ?_ h
    · field_simp; norm_num
    · rw [(uniform_sign hr _ _ _ _).1, e, show 2 * Real.pi * 0 - Real.pi / 2 = -(Real.pi / 2) by ring,
        Real.cos_neg]
      exact Real.cos_lt_cos_of_nonneg_of_le_pi (by positivity) (by linarith) (by linarith)
    · rw [(uniform_sign hr _ _ _ _).1, e, show 2 * Real.pi * (1 / 2) - Real.pi / 2 = Real.pi / 2 by ring]
      exact Real.cos_lt_cos_of_nonneg_of_le_pi (by positivity) (by linarith) (by linarith)
  · rw [(uniform_sign hr _ _ _ _).2.1, e, show 2 * Real.pi * (1 / 4) - Real.pi / 2 = 0 by ring]
    exact Real.cos_lt_cos_of_nonneg_of_le_pi le_rfl (by linarith) (by positivity)

open Classical in
/-- An exact root finder. -/
noncomputable def exactRoot : RootFinder ℝ := fun lo hi _ _ g =>
  if h : ∃ z ∈ Icc lo hi, g z = 0 then some h.choose else none

theorem exactRoot_accurate {g : ℝ → ℝ} (hg : Continuous g) (a b : ℝ) : Accurate exactRoot g a b 0 := by
  intro lo hi _ hlt _ hsc
  have h := exists_zero g lo hi hlt.le hg.continuousOn hsc
  refine ⟨h.choose, h.choose, ?_, h.choose_spec.1, h.choose_spec.1, h.choose_spec.2, by simp⟩
  unfold exactRoot
  rw [dif_pos h]

/-- The hypotheses of `uniform_exact` are met by a star on the equator which sets in the middle of the
window: reported above exactly before it sets. -/
example (sg : ℝ → Int) (hsg : RootFinding.Spec.IsSignum sg) :
    ∃ n₀, ∀ fuel ≥ n₀, ∃ ps,
      abovePeriods sg exactRoot fuel 1 ⟨0, 1, 0, 0⟩ (fun _ => 0) (uniformAlt ⟨0, 1, 0, 0⟩ 0 0 1) 0 (1 / 2)
        (Real.pi / 2 - Real.pi / 2) = some ps ∧ InSome ps (1 / 8) ∧ ¬ InSome ps (3 / 8) := by
  have hpi := Real.pi_pos
  have hr : Rising ⟨0, 1, 0, 0⟩ (Real.pi / 2 - Real.pi / 2) (Real.pi / 2) := equator_rising (by positivity) (by linarith)
  have e : ∀ t, toRad (turning 0 0 1 t) = 2 * Real.pi * t := by
    intro t; unfold toRad turning; field_simp; ring
  have hsgn := uniform_sign hr 0 0 1
  simp only [e, Real.cos_pi_div_two] at hsgn
  have hpos : ∀ t, |t| < 1 / 4 → 0 < Real.cos (2 * Real.pi * t) := by
    intro t ht
    rw [abs_lt] at ht
    exact Real.cos_pos_of_mem_Ioo ⟨by nlinarith [ht.1], by nlinarith [ht.2]⟩
  have hneg : ∀ t, |t - 1 / 2| < 1 / 4 → Real.cos (2 * Real.pi * t) < 0 := by
    intro t ht
    rw [abs_lt] at ht
    exact Real.cos_neg_of_pi_div_two_lt_of_lt (by nlinarith [ht.1]) (by nlinarith [ht.2])
  obtain ⟨n₀, hn⟩ := uniform_exact (ha := fun _ => 0) (root := exactRoot) (a := 0) (b := 1 / 2) (tol := 0) hsg hr
    (sid := 1) (by norm_num) (by field_simp; norm_num) (by field_simp; norm_num) (by norm_num) le_rfl (by norm_num)
    (by
      intro t ht h0
      have hc := (hsgn t).2.2.mp h0
      rcases ht with ht | ht
      · have := hpos t (by simp only [sub_zero] at ht; exact lt_trans ht (by norm_num)); linarith
      · have := hneg t (lt_trans ht (by norm_num)); linarith)
    (exactRoot_accurate ((uniform_continuous _ _ _ _).sub continuous_const) _ _)
  refine ⟨n₀, fun fuel hf => ?_⟩
  obtain ⟨ps, h1, _, h2⟩ := hn fuel hf
  have hne : ∀ t, Real.cos (2 * Real.pi * t) ≠ 0 →
      ∀ z ∈ Icc (0 : ℝ) (1 / 2), uniformAlt ⟨0, 1, 0, 0⟩ 0 0 1 z = Real.pi / 2 - Real.pi / 2 → 0 < |t - z| := by
    intro t ht z _ hz
    rw [abs_pos, sub_ne_zero]
    rintro rfl
    exact ht ((hsgn t).2.2.mp hz)
  have h8 := hpos (1 / 8) (by rw [abs_of_pos] <;> norm_num)
  have h38 := hneg (3 / 8) (by rw [abs_of_nonpos] <;> norm_num)
  refine ⟨ps, h1, ?_, ?_⟩
  · rw [h2 (1 / 8) ⟨by norm_num, by norm_num⟩ (hne _ h8.ne')]
    exact (hsgn _).2.1.mpr h8
  · rw [h2 (3 / 8) ⟨by norm_num, by norm_num⟩ (hne _ h38.ne)]
    exact not_lt.mpr ((hsgn _).1.mpr h38).le

end Verif.Stellar.Props
