import Mathlib.Analysis.SpecialFunctions.Trigonometric.Bounds
import Mathlib.Analysis.Real.Pi.Bounds
import Verif.Altitude.Model
import Verif.Search.Props
import Verif.Event.Props

/-
C77: altitude queries answer about the altitude, although the search works on sines.
C78: periods above, below and within a band.
-/
namespace Verif.Altitude
open Verif.Event (LabeledCrossing PeriodAlgebra buildAbovePeriodsDirected)
open Verif.Event.Spec (InSome WellFormed AlgebraOK)
open Verif.Search (Fit Fitted Config findLabelledCrossings Fine machineEps)
open Verif.Search.Props (Grained)
open Verif.Search.Spec

/-! ### From sines back to angles -/

theorem half_pi_radians {h : ℝ} (h1 : -90 ≤ h) (h2 : h ≤ 90) :
    toRadians h ∈ Set.Icc (-(Real.pi / 2)) (Real.pi / 2) := by
  have := Real.pi_pos
  unfold toRadians
  constructor <;> nlinarith

/-- An angle within `10⁻¹⁰` of another one in sine, both of them altitudes, is within 23 microradians
of it (4.8 arc seconds; the worst case is the zenith). -/
theorem angle_of_sin {x y : ℝ} (hx : x ∈ Set.Icc (-(Real.pi / 2)) (Real.pi / 2))
    (hy : y ∈ Set.Icc (-(Real.pi / 2)) (Real.pi / 2)) (h : Real.sin x ≤ Real.sin y + 1 / 10 ^ 10) :
    x ≤ y + 23 / 10 ^ 6 := by
  by_contra hc
  push Not at hc
  have hd : 0 < x - y := by have : (0 : ℝ) < 23 / 10 ^ 6 := by norm_num
                            linarith
  have hpi := Real.pi_pos
  have e := Real.sin_sub_sin x y
  have hs0 : 2 / Real.pi * ((x - y) / 2) ≤ Real.sin ((x - y) / 2) :=
    Real.mul_le_sin (by linarith) (by linarith [hx.2, hy.1])
  have hcos : Real.sin ((x - y) / 2) ≤ Real.cos ((x + y) / 2) := by
    rw [← Real.cos_pi_div_two_sub, ← Real.cos_abs ((x + y) / 2)]
    refine Real.cos_le_cos_of_nonneg_of_le_pi (abs_nonneg _) (by linarith) ?_
    rw [abs_le]
    constructor <;> linarith [hx.2, hy.1]
  have hlow : 0 < 2 / Real.pi * ((x - y) / 2) := by positivity
  have key : 2 * (2 / Real.pi * ((x - y) / 2)) ^ 2 ≤ 1 / 10 ^ 10 := by
    calc 2 * (2 / Real.pi * ((x - y) / 2)) ^ 2
        = 2 * (2 / Real.pi * ((x - y) / 2)) * (2 / Real.pi * ((x - y) / 2)) := by ring
      _ ≤ 2 * Real.sin ((x - y) / 2) * Real.cos ((x + y) / 2) := by
          apply mul_le_mul _ (hs0.trans hcos) hlow.le
          · linarith
          · linarith
      _ = Real.sin x - Real.sin y := by rw [e]
      _ ≤ _ := by linarith
  have e2 : 2 * (2 / Real.pi * ((x - y) / 2)) ^ 2 = 2 * (x - y) ^ 2 / Real.pi ^ 2 := by
    field_simp
  rw [e2, div_le_iff₀ (by positivity)] at key
  have hp : Real.pi ^ 2 < (3.15 : ℝ) ^ 2 := by
    have := Real.pi_lt_d2
    exact pow_lt_pow_left₀ this hpi.le (by norm_num)
  have hq : (23 / 10 ^ 6 : ℝ) ^ 2 < (x - y) ^ 2 :=
    pow_lt_pow_left₀ (by linarith) (by norm_num) (by norm_num)
  norm_num at hq key hp
  linarith

theorem sin_side {x y : ℝ} (hx : x ∈ Set.Icc (-(Real.pi / 2)) (Real.pi / 2))
    (hy : y ∈ Set.Icc (-(Real.pi / 2)) (Real.pi / 2)) : Real.sin x < Real.sin y ↔ x < y :=
  Real.strictMonoOn_sin.lt_iff_lt hx hy

/-! ### C77 -/

/-- **C77 (termination).** Every query ends. -/
theorem crossings_finish (fit : Fit ℝ) (hint : Option ℝ) (altitude : ℝ → ℝ) (a b h tol : ℝ) :
    ∃ N, ∀ fuel, N ≤ fuel → (crossings fit fuel hint altitude a b h tol).isSome := by
  obtain ⟨N, hN⟩ := Search.Props.search_always_finishes fit a b (scanStep (Config.ofPublic tol) hint)
    (fun t => Real.sin (altitude t)) (Real.sin (toRadians h)) (Config.ofPublic tol)
    (by norm_num [Config.ofPublic])
  refine ⟨N, fun fuel hf => ?_⟩
  have := hN fuel hf
  simp only [crossings, labelledCrossings, Option.isSome_map]
  exact this

/-- An instant at which the altitude is at the threshold as far as the tolerances tell: within 23
microradians, or on the other side of the threshold within `12 tol`. -/
def At (altitude : ℝ → ℝ) (thr a b tol t : ℝ) : Prop :=
  |altitude t - thr| ≤ 23 / 10 ^ 6 ∨
  ∃ y ∈ Set.Icc a b, |y - t| ≤ 12 * tol ∧
    ((altitude t < thr ∧ thr ≤ altitude y) ∨ (thr ≤ altitude t ∧ altitude y < thr))

/-- The altitude goes from the threshold or below to the threshold or above around `t` (strictly on
one side), within `gap`. -/
def Rises (altitude : ℝ → ℝ) (thr a b gap t : ℝ) : Prop :=
  ∃ x y, a ≤ x ∧ x ≤ t ∧ t ≤ y ∧ y ≤ b ∧ x < y ∧ y - x ≤ gap ∧
    altitude x ≤ thr + 23 / 10 ^ 6 ∧ thr - 23 / 10 ^ 6 ≤ altitude y ∧
    (altitude x < thr ∨ thr < altitude y)

def Sets (altitude : ℝ → ℝ) (thr a b gap t : ℝ) : Prop :=
  ∃ x y, a ≤ x ∧ x ≤ t ∧ t ≤ y ∧ y ≤ b ∧ x < y ∧ y - x ≤ gap ∧
    thr - 23 / 10 ^ 6 ≤ altitude x ∧ altitude y ≤ thr + 23 / 10 ^ 6 ∧
    (thr < altitude x ∨ altitude y < thr)

theorem res_eq (tol : ℝ) : max (Config.ofPublic tol).maxResidual (1 / 10 ^ 12) = (1 / 10 ^ 10 : ℝ) := by
  norm_num [Config.ofPublic]

/-- What the sine search says, in angles. -/
theorem altitude_located {altitude : ℝ → ℝ} {thr a b tol t : ℝ}
    (halt : ∀ s, altitude s ∈ Set.Icc (-(Real.pi / 2)) (Real.pi / 2))
    (hthr : thr ∈ Set.Icc (-(Real.pi / 2)) (Real.pi / 2))
    (h : Located (fun s => Real.sin (altitude s) - Real.sin thr) a b (1 / 10 ^ 10) tol t) :
    At altitude thr a b tol t := by
  rcases h with h | ⟨y, y1, y2, y3, y4⟩
  · left
    rw [abs_le] at h ⊢
    have := angle_of_sin (halt t) hthr (by linarith)
    have := angle_of_sin hthr (halt t) (by linarith)
    constructor <;> linarith
  · right
    refine ⟨y, ⟨y1, y2⟩, y3, ?_⟩
    rcases y4 with ⟨u, v⟩ | ⟨u, v⟩
    · left
      refine ⟨(sin_side (halt t) hthr).mp (by linarith), not_lt.mp fun hlt => ?_⟩
      have := (sin_side (halt y) hthr).mpr hlt
      linarith
    · right
      refine ⟨not_lt.mp fun hlt => ?_, (sin_side (halt y) hthr).mp (by linarith)⟩
      have := (sin_side (halt t) hthr).mpr hlt
      linarith

theorem altitude_upward {altitude : ℝ → ℝ} {thr a b gap t : ℝ}
    (halt : ∀ s, altitude s ∈ Set.Icc (-(Real.pi / 2)) (Real.pi / 2))
    (hthr : thr ∈ Set.Icc (-(Real.pi / 2)) (Real.pi / 2))
    (h : Upward (fun s => Real.sin (altitude s) - Real.sin thr) a b (1 / 10 ^ 10) gap t) :
    Rises altitude thr a b gap t := by
  obtain ⟨x, y, h1, h2, h3, h4, h5, h6, h7, h8, h9⟩ := h
  refine ⟨x, y, h1, h2, h3, h4, h5, h6, angle_of_sin (halt x) hthr (by linarith), ?_, ?_⟩
  · have := angle_of_sin hthr (halt y) (by linarith)
    linarith
  · rcases h9 with h9 | h9
    · exact Or.inl ((sin_side (halt x) hthr).mp (by linarith))
    · exact Or.inr ((sin_side hthr (halt y)).mp (by linarith))

theorem altitude_downward {altitude : ℝ → ℝ} {thr a b gap t : ℝ}
    (halt : ∀ s, altitude s ∈ Set.Icc (-(Real.pi / 2)) (Real.pi / 2))
    (hthr : thr ∈ Set.Icc (-(Real.pi / 2)) (Real.pi / 2))
    (h : Downward (fun s => Real.sin (altitude s) - Real.sin thr) a b (1 / 10 ^ 10) gap t) :
    Sets altitude thr a b gap t := by
  obtain ⟨x, y, h1, h2, h3, h4, h5, h6, h7, h8, h9⟩ := h
  refine ⟨x, y, h1, h2, h3, h4, h5, h6, ?_, angle_of_sin (halt y) hthr (by linarith), ?_⟩
  · have := angle_of_sin hthr (halt x) (by linarith)
    linarith
  · rcases h9 with h9 | h9
    · exact Or.inl ((sin_side hthr (halt x)).mp (by linarith))
    · exact Or.inr ((sin_side (halt y) hthr).mp (by linarith))

/-- **C77 (crossings).** For a threshold between −90° and 90°: every reported event lies in the
window, the altitude is at the threshold there as far as the tolerances tell, the event is called
rising or setting as the altitude does, and events are in order and distinct. Any target, any
polynomial fitter. -/
theorem altitude_crossings_genuine (fit : Fit ℝ) (fuel : Nat) (hint : Option ℝ) (altitude : ℝ → ℝ)
    (a b h tol : ℝ) (hab : a < b) (h1 : -90 ≤ h) (h2 : h ≤ 90)
    (halt : ∀ s, altitude s ∈ Set.Icc (-(Real.pi / 2)) (Real.pi / 2))
    (hg : Grained (Config.ofPublic tol) a b) (hT : Fine a b (max tol machineEps))
    (l : List CrossingEvent) (hl : crossings fit fuel hint altitude a b h tol = some l) :
    (∀ e ∈ l, a ≤ e.mjd ∧ e.mjd ≤ b ∧
      At altitude (h * Real.pi / 180) a b (max tol (1 / 2 ^ 52)) e.mjd ∧
      (e.direction = .rising → Rises altitude (h * Real.pi / 180) a b
        (max (max (hint.getD (1 / 144)) (1 / 10 ^ 6)) (1 / 500)) e.mjd) ∧
      (e.direction = .setting → Sets altitude (h * Real.pi / 180) a b
        (max (max (hint.getD (1 / 144)) (1 / 10 ^ 6)) (1 / 500)) e.mjd)) ∧
    l.Pairwise (fun u v => 1 / 10 ^ 8 ≤ v.mjd - u.mjd) := by
  simp only [crossings, Option.map_eq_some_iff] at hl
  obtain ⟨⟨cs, above⟩, hc, rfl⟩ := hl
  have hthr := half_pi_radians h1 h2
  obtain ⟨g1, g2, -⟩ := Search.Props.search_crossings_genuine fit fuel a b _ _ _ _ hab hg hT rfl cs above hc
  have hstep : (Config.ofPublic tol).scanStep.getD (scanStep (Config.ofPublic tol) hint)
      = hint.getD (1 / 144) := by
    unfold scanStep defaultScanStep Config.ofPublic
    norm_num
  rw [res_eq, hstep] at g1
  constructor
  · intro e he
    obtain ⟨c, hc', rfl⟩ := List.mem_map.mp he
    obtain ⟨c1, c2, c3, c4⟩ := g1 c hc'
    refine ⟨c1, c2, altitude_located halt hthr c3, fun hr => ?_, fun hs => ?_⟩
    · rcases c4 with ⟨d, u⟩ | ⟨d, u⟩
      · exact altitude_upward halt hthr u
      · simp [eventOf, d] at hr
    · rcases c4 with ⟨d, u⟩ | ⟨d, u⟩
      · simp [eventOf, d] at hs
      · exact altitude_downward halt hthr u
  · rw [List.pairwise_map]
    exact g2

theorem default_grained : Grained (Config.ofPublic (1 / 10 ^ 9 : ℝ)) 60000 60002 := by
  refine ⟨by norm_num [Config.ofPublic], fun k hk => ?_⟩
  simp only [Config.ofPublic] at hk ⊢
  have : (k : ℝ) < 4 := by linarith
  have : k < 4 := by exact_mod_cast this
  interval_cases k <;> norm_num

theorem default_fine : Fine (60000 : ℝ) 60002 (max (1 / 10 ^ 9) machineEps) := by
  intro x x1 x2
  rw [abs_of_nonneg (by linarith)]
  refine le_trans ?_ (mul_le_mul_of_nonneg_left (le_max_left _ _) (by norm_num))
  unfold machineEps
  linarith

/-- A target that rises from −1 to 1 radian in two days crosses 0° only near the middle of the window
and is never reported as setting there. -/
example (fit : Fit ℝ) : ∃ fuel l,
    crossings fit fuel none (fun t => max (-1) (min 1 (t - 60001))) 60000 60002 0 (1 / 10 ^ 9) = some l ∧
    ∀ e ∈ l, |e.mjd - 60001| ≤ 1 / 10 ^ 4 := by
  obtain ⟨N, hN⟩ := crossings_finish fit none (fun t => max (-1) (min 1 (t - 60001))) 60000 60002 0
    (1 / 10 ^ 9)
  obtain ⟨l, hl⟩ := Option.isSome_iff_exists.mp (hN N le_rfl)
  have hpi := Real.pi_gt_d2
  refine ⟨N, l, hl, fun e he => ?_⟩
  obtain ⟨g, -⟩ := altitude_crossings_genuine fit N none _ 60000 60002 0 (1 / 10 ^ 9) (by norm_num)
    (by norm_num) (by norm_num)
    (fun s => ⟨le_trans (by linarith) (le_max_left _ _),
      max_le (by linarith) ((min_le_left _ _).trans (by linarith))⟩) default_grained default_fine l hl
  obtain ⟨e1, e2, e3, -⟩ := g e he
  have hid : ∀ s : ℝ, 60000 ≤ s → s ≤ 60002 → max (-1) (min 1 (s - 60001)) = s - 60001 := by
    intro s s1 s2
    rw [min_eq_right (by linarith), max_eq_right (by linarith)]
  rw [max_eq_left (by norm_num)] at e3
  rcases e3 with e3 | ⟨y, ⟨y1, y2⟩, y3, y4⟩
  · beta_reduce at e3
    rw [hid _ e1 e2] at e3
    norm_num at e3
    linarith
  · beta_reduce at y4
    rw [hid _ e1 e2, hid _ y1 y2] at y4
    rw [abs_le] at y3 ⊢
    norm_num at y3 y4 ⊢
    rcases y4 with ⟨u, v⟩ | ⟨u, v⟩ <;> constructor <;> linarith

/-- **C77 (finding).** A threshold beyond the zenith is silently reflected: 180° − h gives the answers
for h. -/
theorem threshold_reflected (fit : Fit ℝ) (fuel : Nat) (hint : Option ℝ) (altitude : ℝ → ℝ)
    (a b h tol : ℝ) :
    crossings fit fuel hint altitude a b (180 - h) tol = crossings fit fuel hint altitude a b h tol ∧
    aboveThreshold fit fuel hint altitude a b (180 - h) tol
      = aboveThreshold fit fuel hint altitude a b h tol := by
  have : Real.sin (toRadians (180 - h)) = Real.sin (toRadians h) := by
    rw [← Real.sin_pi_sub (toRadians h)]
    congr 1
    unfold toRadians
    ring
  simp only [crossings, aboveThreshold, labelledCrossings, this, and_self]

theorem sin_100_lt_85 : Real.sin (toRadians 100) + 1 / 10 ^ 10 < Real.sin (toRadians 85) := by
  have hpi := Real.pi_gt_d2
  by_contra hc
  push Not at hc
  have e : Real.sin (toRadians 100) = Real.sin (toRadians 80) := by
    rw [← Real.sin_pi_sub (toRadians 80)]
    congr 1
    unfold toRadians
    ring
  rw [e] at hc
  have := angle_of_sin (half_pi_radians (h := 85) (by norm_num) (by norm_num))
    (half_pi_radians (h := 80) (by norm_num) (by norm_num)) hc
  unfold toRadians at this
  norm_num at this
  linarith

theorem constant_answer (fit : Fit ℝ) (fuel : Nat) (hint : Option ℝ) (alt a b h tol : ℝ) (hab : a < b)
    (hg : Grained (Config.ofPublic tol) a b) (hT : Fine a b (max tol machineEps))
    (hs : 1 / 10 ^ 10 < Real.sin alt - Real.sin (toRadians h))
    (ps : List (ℝ × ℝ)) (hl : aboveThreshold fit fuel hint (fun _ => alt) a b h tol = some ps) :
    ps = [(a, b)] := by
  simp only [aboveThreshold, Option.map_eq_some_iff] at hl
  obtain ⟨⟨cs, above⟩, hc, rfl⟩ := hl
  obtain ⟨g1, -, g3⟩ := Search.Props.search_crossings_genuine fit fuel a b _ _ _ _ hab hg hT rfl cs above hc
  rw [res_eq] at g1
  have h10 : (0 : ℝ) < 1 / 10 ^ 10 := by norm_num
  have habove : above = true := g3.mpr (by linarith)
  have hnil : cs = [] := by
    rw [List.eq_nil_iff_forall_not_mem]
    intro c hc'
    obtain ⟨-, -, c3, -⟩ := g1 c hc'
    rcases c3 with c3 | ⟨y, -, -, -, c4⟩
    · have := le_of_abs_le c3
      linarith
    · rcases c4 with ⟨u, v⟩ | ⟨u, v⟩ <;> linarith
  subst hnil habove
  rfl

theorem constant_low (fit : Fit ℝ) (fuel : Nat) (hint : Option ℝ) (alt a b h tol : ℝ) (hab : a < b)
    (hg : Grained (Config.ofPublic tol) a b) (hT : Fine a b (max tol machineEps))
    (hs : 1 / 10 ^ 10 < Real.sin (toRadians h) - Real.sin alt)
    (ps : List (ℝ × ℝ)) (hl : aboveThreshold fit fuel hint (fun _ => alt) a b h tol = some ps) :
    ps = [] := by
  simp only [aboveThreshold, Option.map_eq_some_iff] at hl
  obtain ⟨⟨cs, above⟩, hc, rfl⟩ := hl
  obtain ⟨g1, -, g3⟩ := Search.Props.search_crossings_genuine fit fuel a b _ _ _ _ hab hg hT rfl cs
    above hc
  rw [res_eq] at g1
  have h10 : (0 : ℝ) < 1 / 10 ^ 10 := by norm_num
  have habove : above = false := by
    rw [← Bool.not_eq_true, g3]
    linarith
  have hnil : cs = [] := by
    rw [List.eq_nil_iff_forall_not_mem]
    intro c hc'
    obtain ⟨-, -, c3, -⟩ := g1 c hc'
    rcases c3 with c3 | ⟨y, -, -, -, c4⟩
    · have := neg_le_of_abs_le c3
      linarith
    · rcases c4 with ⟨u, v⟩ | ⟨u, v⟩ <;> linarith
  subst hnil habove
  rfl

/-- **C77 (finding).** A target standing at 85° is reported above 100° during the whole window, by
every fitter: the altitude exceeds the threshold at no instant. -/
theorem above_hundred_degrees (fit : Fit ℝ) (fuel : Nat) (hint : Option ℝ)
    (ps : List (ℝ × ℝ))
    (hl : aboveThreshold fit fuel hint (fun _ => toRadians 85) 60000 60002 100 (1 / 10 ^ 9) = some ps) :
    ps = [(60000, 60002)] ∧ ∀ t : ℝ, (fun _ : ℝ => toRadians 85) t < toRadians 100 := by
  constructor
  · refine constant_answer fit fuel hint _ _ _ _ _ (by norm_num) ?_ ?_ ?_ ps hl
    · exact default_grained
    · exact default_fine
    · linarith [sin_100_lt_85]
  · intro t
    have := Real.pi_pos
    show toRadians 85 < toRadians 100
    unfold toRadians
    linarith

/-! ### C78 -/

/-- **C78 (below).** What is not above is below: away from the ends of the periods, an instant of the
window is in exactly one of the two answers, whenever the periods above are well formed. -/
theorem below_is_complement (alg : PeriodAlgebra ℝ) (fit : Fit ℝ) (fuel : Nat) (hint : Option ℝ)
    (altitude : ℝ → ℝ) (a b h tol : ℝ) (halg : AlgebraOK alg.complement alg.intersect a b)
    (above below : List (ℝ × ℝ))
    (ha : aboveThreshold fit fuel hint altitude a b h tol = some above)
    (hb : belowThreshold alg fit fuel hint altitude a b h tol = some below)
    (hw : WellFormed a b above) (t : ℝ) (h1 : a < t) (h2 : t < b)
    (hne : ∀ p ∈ above, t ≠ p.1 ∧ t ≠ p.2) : InSome below t ↔ ¬ InSome above t := by
  unfold belowThreshold at hb
  rw [ha] at hb
  obtain rfl := Option.some.inj hb
  exact halg.compl_mem above hw t h1 h2 hne

/-- **C78 (band).** The band query gives the instants above the lower and not above the upper bound. -/
theorem band_is_difference (alg : PeriodAlgebra ℝ) (fit : Fit ℝ) (fuel : Nat) (hint : Option ℝ)
    (altitude : ℝ → ℝ) (a b hMin hMax tol : ℝ) (halg : AlgebraOK alg.complement alg.intersect a b)
    (aboveMin aboveMax band : List (ℝ × ℝ))
    (h1 : aboveThreshold fit fuel hint altitude a b hMin tol = some aboveMin)
    (h2 : aboveThreshold fit fuel hint altitude a b hMax tol = some aboveMax)
    (hb : altitudeRanges alg fit fuel hint altitude a b hMin hMax tol = some band)
    (w1 : WellFormed a b aboveMin) (w2 : WellFormed a b aboveMax) (t : ℝ) (ta : a < t) (tb : t < b)
    (n1 : ∀ p ∈ aboveMin, t ≠ p.1 ∧ t ≠ p.2) (n2 : ∀ p ∈ aboveMax, t ≠ p.1 ∧ t ≠ p.2) :
    InSome band t ↔ InSome aboveMin t ∧ ¬ InSome aboveMax t := by
  simp only [aboveThreshold, Option.map_eq_some_iff] at h1 h2
  obtain ⟨r1, e1, rfl⟩ := h1
  obtain ⟨r2, e2, rfl⟩ := h2
  simp only [altitudeRanges, e1, e2, Option.bind_some, Option.map_some, Option.some.injEq] at hb
  subst hb
  rw [halg.inter_mem _ _ w1 (halg.compl_wf _ w2) t n1 ?_, halg.compl_mem _ w2 t ta tb n2]
  intro q hq
  obtain ⟨q1, q2⟩ := halg.compl_ends _ w2 q hq
  constructor
  · rcases q1 with q1 | ⟨p, hp, q1⟩
    · rw [q1]; exact ne_of_gt ta
    · rw [q1]; exact (n2 p hp).2
  · rcases q2 with q2 | ⟨p, hp, q2⟩
    · rw [q2]; exact ne_of_lt tb
    · rw [q2]; exact (n2 p hp).1

/-- **C78 (empty window).** A window without extent has no periods above and no crossings. -/
theorem empty_window (fit : Fit ℝ) (fuel : Nat) (hint : Option ℝ) (altitude : ℝ → ℝ) (a b h tol : ℝ)
    (hab : b ≤ a) : aboveThreshold fit fuel hint altitude a b h tol = some [] ∧
      crossings fit fuel hint altitude a b h tol = some [] := by
  simp only [aboveThreshold, crossings, labelledCrossings, findLabelledCrossings, if_pos hab]
  exact ⟨rfl, rfl⟩

/-- **C78 (well formed, partial).** The periods above are ordered, disjoint and inside the window, and
an instant is in them exactly when an odd number of events (even number, if the window starts above)
lie before it — provided rising and setting events alternate from the state at the start. Missing:
the engine does not ensure the alternation, see `above_periods_overlap`. -/
theorem above_periods_partial (fit : Fit ℝ) (fuel : Nat) (hint : Option ℝ) (altitude : ℝ → ℝ)
    (a b h tol : ℝ) (hab : a < b) (hg : Grained (Config.ofPublic tol) a b)
    (hT : Fine a b (max tol machineEps)) (cs : List (LabeledCrossing ℝ)) (above : Bool)
    (hc : labelledCrossings fit fuel a b (scanStep (Config.ofPublic tol) hint) altitude
      (toRadians h) (Config.ofPublic tol) = some (cs, above))
    (hne : ∀ c ∈ cs.head?, c.direction = if above then -1 else 1)
    (halt : cs.IsChain (fun c d => d.direction = -c.direction)) :
    ∃ ps, aboveThreshold fit fuel hint altitude a b h tol = some ps ∧ WellFormed a b ps ∧
      ∀ t ∈ Set.Icc a b, t ∉ cs.map (·.t) →
        (InSome ps t ↔ Event.Spec.stateAt above (cs.map (·.t)) t = true) := by
  have hA : Event.Alternates above cs := by
    clear hc
    induction cs generalizing above with
    | nil => trivial
    | cons c cs ih =>
      refine ⟨hne c rfl, ih (!above) ?_ halt.tail⟩
      intro d hd
      cases cs with
      | nil => simp at hd
      | cons d' cs =>
        simp only [List.head?_cons, Option.mem_def, Option.some.injEq] at hd
        subst hd
        have e1 := hne c rfl
        have e2 : d'.direction = -c.direction := (List.isChain_cons_cons.mp halt).1
        rw [e2, e1]
        cases above <;> rfl
  obtain ⟨g1, g2, -⟩ := Search.Props.search_crossings_genuine fit fuel a b _ _ _ _ hab hg hT rfl cs above hc
  have hs : (Event.times cs).Pairwise (· < ·) := by
    unfold Event.times
    rw [List.pairwise_map]
    refine g2.imp fun {u v} huv => ?_
    have : (0 : ℝ) < 1 / 10 ^ 8 := by norm_num
    linarith
  have hb : ∀ c ∈ Event.times cs, a ≤ c ∧ c ≤ b := by
    intro c hc'
    obtain ⟨e, he, rfl⟩ := List.mem_map.mp hc'
    exact ⟨(g1 e he).1, (g1 e he).2.1⟩
  refine ⟨buildAbovePeriodsDirected cs a b above, ?_, Event.buildDirected_wf a b hab above cs hA hs hb, ?_⟩
  · simp only [aboveThreshold, hc, Option.map_some]
  · intro t ht hnt
    exact Event.buildDirected_mem a b t ht.1 ht.2 above cs hA hs hb hnt

/-- A target standing at 40° asked for the band from 30° to 60°: the whole window. -/
example (fit : Fit ℝ) : ∃ fuel band,
    altitudeRanges ⟨Event.refCompl, Event.refInter⟩ fit fuel none (fun _ => toRadians 40) 60000 60002 30
      60 (1 / 10 ^ 9) = some band ∧ InSome band 60001 := by
  have fin : ∀ h, ∃ N, ∀ fuel, N ≤ fuel →
      (labelledCrossings fit fuel 60000 60002 (scanStep (Config.ofPublic (1 / 10 ^ 9)) none)
        (fun _ => toRadians 40) (toRadians h) (Config.ofPublic (1 / 10 ^ 9))).isSome := fun h =>
    Search.Props.search_always_finishes fit _ _ _ _ _ _ (by norm_num [Config.ofPublic])
  obtain ⟨N1, f1⟩ := fin 30
  obtain ⟨N2, f2⟩ := fin 60
  obtain ⟨r1, e1⟩ := Option.isSome_iff_exists.mp (f1 (max N1 N2) (le_max_left _ _))
  obtain ⟨r2, e2⟩ := Option.isSome_iff_exists.mp (f2 (max N1 N2) (le_max_right _ _))
  have a1 : aboveThreshold fit (max N1 N2) none (fun _ => toRadians 40) 60000 60002 30 (1 / 10 ^ 9)
      = some (buildAbovePeriodsDirected r1.1 60000 60002 r1.2) := by
    simp only [aboveThreshold, e1, Option.map_some]
  have a2 : aboveThreshold fit (max N1 N2) none (fun _ => toRadians 40) 60000 60002 60 (1 / 10 ^ 9)
      = some (buildAbovePeriodsDirected r2.1 60000 60002 r2.2) := by
    simp only [aboveThreshold, e2, Option.map_some]
  have hpi := Real.pi_gt_d2
  have near : ∀ x y : ℝ, -90 ≤ x → x ≤ 90 → -90 ≤ y → y ≤ 90 → x + 1 < y →
      Real.sin (toRadians x) + 1 / 10 ^ 10 < Real.sin (toRadians y) := by
    intro x y h1 h2 h3 h4 h5
    by_contra hc
    have := angle_of_sin (half_pi_radians h3 h4) (half_pi_radians h1 h2) (not_lt.mp hc)
    unfold toRadians at this
    norm_num at this
    nlinarith
  have w1 := constant_answer fit _ none _ _ _ _ _ (by norm_num) default_grained default_fine
    (by have := near 30 40 (by norm_num) (by norm_num) (by norm_num) (by norm_num) (by norm_num)
        linarith) _ a1
  have w2 := constant_low fit _ none _ _ _ _ _ (by norm_num) default_grained default_fine
    (by have := near 40 60 (by norm_num) (by norm_num) (by norm_num) (by norm_num) (by norm_num)
        linarith) _ a2
  rw [w1] at a1
  rw [w2] at a2
  have hb : altitudeRanges ⟨Event.refCompl, Event.refInter⟩ fit (max N1 N2) none
      (fun _ => toRadians 40) 60000 60002 30 60 (1 / 10 ^ 9)
      = some (Event.refInter (buildAbovePeriodsDirected r1.1 60000 60002 r1.2)
        (Event.refCompl (60000, 60002) (buildAbovePeriodsDirected r2.1 60000 60002 r2.2))) := by
    simp only [altitudeRanges, e1, e2, Option.bind_some, Option.map_some]
  refine ⟨_, _, hb, ?_⟩
  have := band_is_difference ⟨Event.refCompl, Event.refInter⟩ fit (max N1 N2) none _ _ _ _ _ _
    (Event.refAlgebra_ok _ _) _ _ _ a1 a2 hb (by norm_num [WellFormed]) (by simp [WellFormed]) 60001
    (by norm_num) (by norm_num) (by norm_num) (by simp)
  rw [this]
  norm_num [InSome]

/-! ### What the engine does with close crossings -/

/-- A fitter that is right about one cubic or quadratic: it reports the given instants of `[0, 1/2]`
as roots, with no tail. -/
def exactFit (roots : List ℚ) (slope : ℚ → ℚ) : Fit ℚ := fun _ _ _ _ _ =>
  some ⟨some 0, roots.map (fun t => 4 * t - 1), fun x => slope ((x + 1) / 4) / 4⟩

/-- Three crossings within 52 seconds: up, down, up. -/
def wobble (t : ℚ) : ℚ := (t - 1 / 5) * (t - 2003 / 10000) * (t - 2006 / 10000)

def wobbleSlope (t : ℚ) : ℚ :=
  (t - 2003 / 10000) * (t - 2006 / 10000) + (t - 1 / 5) * (t - 2006 / 10000) +
    (t - 1 / 5) * (t - 2003 / 10000)

/-- **C78 (finding).** Labels come from probes up to 86 seconds away, so three crossings within that
time are all labelled as rising and the periods overlap; the search has found every root exactly. The
last line: between the second and the third crossing the signal is below the threshold. -/
theorem above_periods_overlap :
    (findLabelledCrossings (exactFit [1 / 5, 2003 / 10000, 2006 / 10000] wobbleSlope) 3 0 (1 / 2)
      (1 / 144) wobble 0 (Config.ofPublic (1 / 10 ^ 9))).map
        (fun r => buildAbovePeriodsDirected r.1 0 (1 / 2) r.2)
      = some [(1 / 5, 1 / 2), (2003 / 10000, 1 / 2), (2006 / 10000, 1 / 2)] ∧
    ¬ WellFormed (0 : ℚ) (1 / 2) [(1 / 5, 1 / 2), (2003 / 10000, 1 / 2), (2006 / 10000, 1 / 2)] ∧
    wobble (2004 / 10000) < 0 := by
  refine ⟨?_, ?_, by decide +kernel⟩
  · have hraw : Search.segmentsLoop (exactFit [1 / 5, 2003 / 10000, 2006 / 10000] wobbleSlope) 3 wobble 0
        (Config.ofPublic (1 / 10 ^ 9)) (1 / 144) 0 (1 / 2) 3 0
        = some [⟨1 / 5, 1⟩, ⟨2003 / 10000, 1⟩, ⟨2006 / 10000, 1⟩] := by decide +kernel
    unfold findLabelledCrossings
    rw [if_neg (by norm_num)]
    dsimp only
    rw [if_neg (by decide), show (Config.ofPublic (1 / 10 ^ 9 : ℚ)).scanStep.getD (1 / 144) = 1 / 144 from rfl,
      hraw]
    simp only [Option.map_some, Event.sortAndDedup]
    rw [List.mergeSort_of_pairwise (by decide +kernel)]
    decide +kernel
  · intro h
    have := h.2
    simp only [List.pairwise_cons] at this
    have := this.1 (2003 / 10000, 1 / 2) (by simp)
    norm_num at this

/-- Above the threshold for 69 seconds, half-way between two samples of the fallback scan. -/
def grazing (t : ℚ) : ℚ := (4 / 10 ^ 4) ^ 2 - (t - (1 / 4 + 1 / 288)) ^ 2

def grazingSlope (t : ℚ) : ℚ := -2 * (t - (1 / 4 + 1 / 288))

/-- **C78 (finding).** A passage above the threshold that lasts less than 86 seconds is lost although
the fitted polynomial has both of its roots: neither root can be labelled by the probes, the segment is
given to the scan, and the scan steps over the passage. -/
theorem short_passage_lost :
    findLabelledCrossings (exactFit [1 / 4 + 1 / 288 - 4 / 10 ^ 4, 1 / 4 + 1 / 288 + 4 / 10 ^ 4]
      grazingSlope) 100 0 (1 / 2) (1 / 144) grazing 0 (Config.ofPublic (1 / 10 ^ 9)) = some ([], false) ∧
    grazing (1 / 4 + 1 / 288 - 4 / 10 ^ 4) = 0 ∧ grazing (1 / 4 + 1 / 288 + 4 / 10 ^ 4) = 0 ∧
    ∀ t, |t - (1 / 4 + 1 / 288)| < 4 / 10 ^ 4 → 0 < grazing t := by
  refine ⟨?_, by decide +kernel, by decide +kernel, ?_⟩
  · have hraw : Search.segmentsLoop (exactFit [1 / 4 + 1 / 288 - 4 / 10 ^ 4, 1 / 4 + 1 / 288 + 4 / 10 ^ 4]
        grazingSlope) 100 grazing 0 (Config.ofPublic (1 / 10 ^ 9)) (1 / 144) 0 (1 / 2) 100 0
        = some [] := by decide +kernel
    unfold findLabelledCrossings
    rw [if_neg (by norm_num)]
    dsimp only
    rw [if_neg (by decide), show (Config.ofPublic (1 / 10 ^ 9 : ℚ)).scanStep.getD (1 / 144) = 1 / 144 from rfl,
      hraw]
    decide +kernel
  · intro t ht
    unfold grazing
    have := sq_lt_sq' (by linarith [neg_lt_of_abs_lt ht]) (lt_of_abs_lt ht)
    linarith

end Verif.Altitude
