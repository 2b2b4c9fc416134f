import Verif.Forces.Light
import Mathlib.Data.List.GetD

/-!
# Density and drag
-/

namespace Verif.Forces

/-! ## Exponential profile -/

/-- **C119**: the exponential profile has the given density at the reference altitude, falls by the factor e over each
scale height, strictly decreases and rejects exactly the altitudes below the surface. -/
theorem exponential_profile {rho0 h0 s : ℝ} (hr : 0 < rho0) (hs : 0 < s) :
    (0 ≤ h0 → exponentialDensity rho0 h0 s h0 = .ok rho0) ∧
    (∀ h, 0 ≤ h → ∃ ρ, exponentialDensity rho0 h0 s h = .ok ρ ∧ 0 < ρ ∧
      exponentialDensity rho0 h0 s (h + s) = .ok (ρ / Real.exp 1) ∧
      (∀ h', h < h' → ∃ ρ', exponentialDensity rho0 h0 s h' = .ok ρ' ∧ ρ' < ρ ∧
        ρ' / ρ = Real.exp (-((h' - h) / s)))) ∧
    (∀ h, h < 0 → exponentialDensity rho0 h0 s h = .error (.altitudeBelowSurface h)) := by
  have hval : ∀ h, 0 ≤ h → exponentialDensity rho0 h0 s h = .ok (rho0 * Real.exp (-(h - h0) / s)) := by
    intro h hh
    unfold exponentialDensity
    rw [if_neg (not_lt.mpr hh)]
  refine ⟨fun h => ?_, fun h hh => ?_, fun h hh => ?_⟩
  · rw [hval _ h]; simp
  · refine ⟨_, hval h hh, by positivity, ?_, ?_⟩
    · rw [hval _ (by linarith), mul_div_assoc, ← Real.exp_sub]
      congr 3
      field_simp
      ring
    · intro h' hlt
      refine ⟨_, hval h' (by linarith), ?_, ?_⟩
      · apply mul_lt_mul_of_pos_left _ hr
        apply Real.exp_lt_exp.mpr
        apply div_lt_div_of_pos_right _ hs
        linarith
      · rw [mul_div_mul_left _ _ hr.ne', ← Real.exp_sub]
        congr 1
        field_simp
        ring
  · unfold exponentialDensity
    rw [if_pos hh]

/-- The 500 km layer of `LEO_500KM`. -/
example : ∃ ρ, exponentialDensity 6.967e-13 500 63.822 600 = .ok ρ ∧ ρ < 6.967e-13 := by
  obtain ⟨h1, h2, -⟩ := exponential_profile (rho0 := 6.967e-13) (h0 := 500) (s := 63.822) (by norm_num) (by norm_num)
  obtain ⟨ρ, e, -, -, h⟩ := h2 500 (by norm_num)
  rw [h1 (by norm_num)] at e
  obtain ⟨ρ', e', hl, -⟩ := h 600 (by norm_num)
  cases e
  exact ⟨ρ', e', hl⟩

/-- **C119**, finding: `ConstantDensity` returns its density below the surface, where the trait promises an error. -/
theorem constant_below_surface (ρ : ℝ) : constantDensity ρ (-1) = .ok ρ := rfl

/-! ## Table -/

/-- A table of altitudes in increasing order with positive densities. -/
structure Table (t : List (ℝ × ℝ)) : Prop where
  two : 2 ≤ t.length
  increasing : ∀ i j, i < j → j < t.length → (t.getD i (0, 0)).1 < (t.getD j (0, 0)).1
  positive : ∀ i, i < t.length → 0 < (t.getD i (0, 0)).2

theorem bracket_left {a b : ℝ × ℝ} (ha : 0 < a.2) : bracket a b a.1 = a.2 := by
  unfold bracket
  simp [Real.exp_log ha]

theorem bracket_right {a b : ℝ × ℝ} (h : a.1 < b.1) (hb : 0 < b.2) : bracket a b b.1 = b.2 := by
  unfold bracket
  simp only
  rw [div_self (by linarith), one_mul, add_sub_cancel, Real.exp_log hb]

theorem find_bracket {h : ℝ} : ∀ (t : List (ℝ × ℝ)) (i : ℕ), i + 1 < t.length →
    (∀ i j, i < j → j < t.length → (t.getD i (0, 0)).1 < (t.getD j (0, 0)).1) →
    (∀ i, i < t.length → 0 < (t.getD i (0, 0)).2) →
    (t.getD i (0, 0)).1 ≤ h → h ≤ (t.getD (i + 1) (0, 0)).1 →
    findBracket h t = some (bracket (t.getD i (0, 0)) (t.getD (i + 1) (0, 0)) h) := by
  intro t
  induction t with
  | nil => intro i hi; simp at hi
  | cons a t ih =>
    intro i hi hinc hpos h1 h2
    cases t with
    | nil => simp at hi
    | cons b t =>
      rw [findBracket]
      cases i with
      | zero =>
        rw [if_pos ⟨by simpa using h1, by simpa using h2⟩]
        rfl
      | succ i =>
        have hinc' : ∀ i j, i < j → j < (b :: t).length → ((b :: t).getD i (0, 0)).1 < ((b :: t).getD j (0, 0)).1 := by
          intro i j hij hj
          simpa using hinc (i + 1) (j + 1) (by omega) (by simpa using hj)
        have hpos' : ∀ i, i < (b :: t).length → 0 < ((b :: t).getD i (0, 0)).2 := by
          intro i hi
          simpa using hpos (i + 1) (by simpa using hi)
        have h1' : ((b :: t).getD i (0, 0)).1 ≤ h := by simpa using h1
        have h2' : h ≤ ((b :: t).getD (i + 1) (0, 0)).1 := by simpa using h2
        have hi' : i + 1 < (b :: t).length := by simpa using hi
        rw [ih i hi' hinc' hpos' h1' h2']
        split_ifs with hc
        · -- on the common node of two brackets
          have hi0 : i = 0 := by
            by_contra hne
            have := hinc' 0 i (by omega) (by omega)
            simp only [List.getD_cons_zero] at this
            linarith [hc.2]
          subst hi0
          simp only [List.getD_cons_zero, List.getD_cons_succ] at h1' ⊢
          have hb : h = b.1 := le_antisymm hc.2 h1'
          have hab := hinc 0 1 (by omega) (by simp)
          simp only [List.getD_cons_zero, List.getD_cons_succ] at hab
          have pb := hpos 1 (by simp)
          simp only [List.getD_cons_zero, List.getD_cons_succ] at pb
          rw [hb, bracket_right hab pb, bracket_left pb]
        · rfl

/-- **C119**: between two neighbouring rows, and above the last row, the logarithm of the density is the straight line through
the two rows; at or below the first row the density is that of the first row. -/
theorem table_interpolates {t : List (ℝ × ℝ)} (ht : Table t) :
    (∀ i h, i + 1 < t.length → (t.getD i (0, 0)).1 ≤ h → (h ≤ (t.getD (i + 1) (0, 0)).1 ∨ i + 2 = t.length) →
      0 < nrlmsise t h ∧
      Real.log (nrlmsise t h) * ((t.getD (i + 1) (0, 0)).1 - (t.getD i (0, 0)).1) =
        Real.log (t.getD i (0, 0)).2 * ((t.getD (i + 1) (0, 0)).1 - h)
          + Real.log (t.getD (i + 1) (0, 0)).2 * (h - (t.getD i (0, 0)).1)) ∧
    (∀ h, h ≤ (t.getD 0 (0, 0)).1 → nrlmsise t h = (t.getD 0 (0, 0)).2) := by
  have htwo := ht.two
  have hval : ∀ i h, i + 1 < t.length → (t.getD i (0, 0)).1 ≤ h → (h ≤ (t.getD (i + 1) (0, 0)).1 ∨ i + 2 = t.length) →
      nrlmsise t h = bracket (t.getD i (0, 0)) (t.getD (i + 1) (0, 0)) h := by
    intro i h hi h1 h2
    have hii := ht.increasing i (i + 1) (by omega) hi
    unfold nrlmsise
    simp only
    split_ifs with c1 c2
    · have hi0 : i = 0 := by
        by_contra hne
        have := ht.increasing 0 i (by omega) (by omega)
        linarith
      subst hi0
      have : h = (t.getD 0 (0, 0)).1 := le_antisymm c1 h1
      rw [this, bracket_left (ht.positive 0 (by omega))]
    · by_cases hl : i + 2 = t.length
      · rw [show t.length - 2 = i by omega, show t.length - 1 = i + 1 by omega]
      · exfalso
        have h3 : h ≤ (t.getD (i + 1) (0, 0)).1 := h2.resolve_right hl
        have := ht.increasing (i + 1) (t.length - 1) (by omega) (by omega)
        linarith
    · have h3 : h ≤ (t.getD (i + 1) (0, 0)).1 := by
        rcases h2 with h2 | h2
        · exact h2
        · rw [show i + 1 = t.length - 1 by omega]
          exact (not_le.mp c2).le
      rw [find_bracket t i hi ht.increasing ht.positive h1 h3]
      rfl
  constructor
  · intro i h hi h1 h2
    rw [hval i h hi h1 h2]
    have hii := ht.increasing i (i + 1) (by omega) hi
    unfold bracket
    refine ⟨Real.exp_pos _, ?_⟩
    simp only [Real.log_exp]
    have hne : (t.getD (i + 1) (0, 0)).1 - (t.getD i (0, 0)).1 ≠ 0 := by linarith
    field_simp
    ring
  · intro h hh
    unfold nrlmsise
    simp only
    rw [if_pos hh]

/-- The table is reproduced at its rows. -/
theorem table_nodes {t : List (ℝ × ℝ)} (ht : Table t) {i : ℕ} (hi : i < t.length) :
    nrlmsise t (t.getD i (0, 0)).1 = (t.getD i (0, 0)).2 := by
  have htwo := ht.two
  have hp := ht.positive i hi
  obtain ⟨hb, hf⟩ := table_interpolates ht
  by_cases hlast : i + 1 < t.length
  · have hii := ht.increasing i (i + 1) (by omega) hlast
    obtain ⟨hpos, he⟩ := hb i _ hlast le_rfl (Or.inl hii.le)
    rw [sub_self, mul_zero, add_zero] at he
    have := mul_right_cancel₀ (by linarith) he
    exact Real.log_injOn_pos hpos hp this
  · obtain ⟨j, rfl⟩ : ∃ j, i = j + 1 := ⟨i - 1, by omega⟩
    have hii := ht.increasing j (j + 1) (by omega) hi
    obtain ⟨hpos, he⟩ := hb j _ hi hii.le (Or.inl le_rfl)
    rw [sub_self, mul_zero, zero_add] at he
    have := mul_right_cancel₀ (by linarith) he
    exact Real.log_injOn_pos hpos hp this

/-- Every altitude above the first row lies in a bracket or beyond the last row. -/
theorem table_cover {t : List (ℝ × ℝ)} (ht : Table t) {h : ℝ} (h0 : (t.getD 0 (0, 0)).1 ≤ h) :
    ∃ i, i + 1 < t.length ∧ (t.getD i (0, 0)).1 ≤ h ∧ (h < (t.getD (i + 1) (0, 0)).1 ∨ i + 2 = t.length) := by
  have htwo := ht.two
  have : ∀ n, n + 1 < t.length → (∃ i, i ≤ n ∧ (t.getD i (0, 0)).1 ≤ h ∧ h < (t.getD (i + 1) (0, 0)).1) ∨
      (t.getD (n + 1) (0, 0)).1 ≤ h := by
    intro n
    induction n with
    | zero =>
      intro hn
      rcases lt_or_ge h (t.getD 1 (0, 0)).1 with hl | hl
      · exact Or.inl ⟨0, le_rfl, h0, hl⟩
      · exact Or.inr hl
    | succ n ih =>
      intro hn
      rcases ih (by omega) with ⟨i, hi, h1, h2⟩ | h1
      · exact Or.inl ⟨i, by omega, h1, h2⟩
      · rcases lt_or_ge h (t.getD (n + 1 + 1) (0, 0)).1 with hl | hl
        · exact Or.inl ⟨n + 1, le_rfl, h1, hl⟩
        · exact Or.inr hl
  rcases this (t.length - 2) (by omega) with ⟨i, hi, h1, h2⟩ | h1
  · exact ⟨i, by omega, h1, Or.inl h2⟩
  · refine ⟨t.length - 2, by omega, ?_, Or.inr (by omega)⟩
    have := ht.increasing (t.length - 2) (t.length - 2 + 1) (by omega) (by omega)
    linarith

/-- **C119**: for a table whose densities decrease, the density never increases with altitude; it is positive everywhere. -/
theorem table_decreasing {t : List (ℝ × ℝ)} (ht : Table t)
    (hd : ∀ i j, i < j → j < t.length → (t.getD j (0, 0)).2 ≤ (t.getD i (0, 0)).2) {h h' : ℝ} (hh : h ≤ h') :
    0 < nrlmsise t h' ∧ nrlmsise t h' ≤ nrlmsise t h := by
  have htwo := ht.two
  obtain ⟨hb, hf⟩ := table_interpolates ht
  -- the density at the lower end of a bracket is not less than inside
  have hlo : ∀ i k, i + 1 < t.length → (t.getD i (0, 0)).1 ≤ k → (k ≤ (t.getD (i + 1) (0, 0)).1 ∨ i + 2 = t.length) →
      nrlmsise t k ≤ (t.getD i (0, 0)).2 := by
    intro i k hi h1 h2
    obtain ⟨hp, he⟩ := hb i k hi h1 h2
    have hii := ht.increasing i (i + 1) (by omega) hi
    have hl := Real.log_le_log (ht.positive (i + 1) hi) (hd i (i + 1) (by omega) hi)
    rw [← Real.log_le_log_iff hp (ht.positive i (by omega))]
    apply le_of_mul_le_mul_right _ (sub_pos.mpr hii)
    rw [he]
    have := mul_le_mul_of_nonneg_right hl (sub_nonneg.mpr h1)
    linarith
  have hhi : ∀ i k, i + 1 < t.length → (t.getD i (0, 0)).1 ≤ k → k ≤ (t.getD (i + 1) (0, 0)).1 →
      (t.getD (i + 1) (0, 0)).2 ≤ nrlmsise t k := by
    intro i k hi h1 h2
    obtain ⟨hp, he⟩ := hb i k hi h1 (Or.inl h2)
    have hii := ht.increasing i (i + 1) (by omega) hi
    have hl := Real.log_le_log (ht.positive (i + 1) hi) (hd i (i + 1) (by omega) hi)
    rw [← Real.log_le_log_iff (ht.positive (i + 1) hi) hp]
    apply le_of_mul_le_mul_right _ (sub_pos.mpr hii)
    rw [he]
    have := mul_le_mul_of_nonneg_right hl (sub_nonneg.mpr h2)
    linarith
  have hd' : ∀ i j, i ≤ j → j < t.length → (t.getD j (0, 0)).2 ≤ (t.getD i (0, 0)).2 := by
    intro i j hij hj
    rcases hij.eq_or_lt with e | e
    · rw [e]
    · exact hd i j e hj
  rcases le_total h' (t.getD 0 (0, 0)).1 with c | c
  · rw [hf h' c, hf h (hh.trans c)]
    exact ⟨ht.positive 0 (by omega), le_rfl⟩
  obtain ⟨j, hj, j1, j2⟩ := table_cover ht c
  have hj2 : h' ≤ (t.getD (j + 1) (0, 0)).1 ∨ j + 2 = t.length := j2.imp_left le_of_lt
  refine ⟨(hb j h' hj j1 hj2).1, ?_⟩
  rcases le_total h (t.getD 0 (0, 0)).1 with c' | c'
  · rw [hf h c']
    exact (hlo j h' hj j1 hj2).trans (hd' 0 j (by omega) (by omega))
  obtain ⟨i, hi, i1, i2⟩ := table_cover ht c'
  have hi2 : h ≤ (t.getD (i + 1) (0, 0)).1 ∨ i + 2 = t.length := i2.imp_left le_of_lt
  rcases lt_trichotomy i j with hij | hij | hij
  · have h3 : h < (t.getD (i + 1) (0, 0)).1 := i2.resolve_right (by omega)
    exact (hlo j h' hj j1 hj2).trans ((hd' (i + 1) j (by omega) (by omega)).trans (hhi i h hi i1 h3.le))
  · subst hij
    obtain ⟨p, e⟩ := hb i h hi i1 hi2
    obtain ⟨p', e'⟩ := hb i h' hi j1 hj2
    have hii := ht.increasing i (i + 1) (by omega) hi
    have hl := Real.log_le_log (ht.positive (i + 1) hi) (hd i (i + 1) (by omega) hi)
    rw [← Real.log_le_log_iff p' p]
    apply le_of_mul_le_mul_right _ (sub_pos.mpr hii)
    rw [e, e']
    have := mul_le_mul_of_nonneg_right hl (sub_nonneg.mpr hh)
    linarith
  · exfalso
    have h3 : h' < (t.getD (j + 1) (0, 0)).1 := j2.resolve_right (by omega)
    rcases (show j + 1 ≤ i by omega).eq_or_lt with e | e
    · rw [e] at h3; linarith
    · have := ht.increasing (j + 1) i e (by omega)
      linarith

/-- Three rows in the shape of the archive table. -/
theorem table_example : Table [(50, 1), (100, 1 / 2), (1000, 1 / 8)] := by
  constructor
  · simp
  · intro i j hij hj
    simp only [List.length_cons, List.length_nil] at hj
    have : (i = 0 ∧ j = 1) ∨ (i = 0 ∧ j = 2) ∨ (i = 1 ∧ j = 2) := by omega
    rcases this with ⟨rfl, rfl⟩ | ⟨rfl, rfl⟩ | ⟨rfl, rfl⟩ <;> norm_num
  · intro i hi
    simp only [List.length_cons, List.length_nil] at hi
    have : i = 0 ∨ i = 1 ∨ i = 2 := by omega
    rcases this with rfl | rfl | rfl <;> norm_num

/-- **C119**, finding: below the first row the density is constant, whereas the description of the type says that the slope of
the first bracket is continued: here 2 would be expected at the surface. -/
theorem no_extrapolation_below : nrlmsiseDensity [(50, 1), (100, 1 / 2), (1000, 1 / 8)] 0 = .ok 1 ∧
    bracket (50, 1) (100, 1 / 2) 0 = 2 := by
  constructor
  · unfold nrlmsiseDensity
    rw [if_neg (lt_irrefl _), (table_interpolates table_example).2 0 (by norm_num)]
    simp
  · unfold bracket
    simp only [Real.log_one]
    rw [show (0 : ℝ) + (0 - 50) / (100 - 50) * (Real.log (1 / 2) - 0) = Real.log 2 by
      rw [one_div, Real.log_inv]; ring]
    exact Real.exp_log (by norm_num)

/-! ## Drag -/

/-- **C119**: the drag acceleration is the friction of a gas that turns with the Earth: against the relative velocity
(metres per second), proportional to its square, to the density at the altitude and to the area-to-mass ratio. -/
theorem drag_law {Γ : Type} {ctx : Context Γ} {density : ℝ → Except Err ℝ} (hc : ctx.atmosphere = some density)
    (cd am oz : ℝ) (r v : Vec3) (hh : 0 ≤ geodeticAltitude r wgsA wgsF) {ρ : ℝ}
    (hρ : density (geodeticAltitude r wgsA wgsF) = .ok ρ) :
    ∃ a V : Vec3, (Drag.withOmega cd am oz).acceleration r v ctx = .ok a ∧
      V = (1000 : ℝ) • (v - Spec.cross !₂[0, 0, oz] r) ∧
      (1000 : ℝ) • a = -((1 / 2 * ρ * cd * am * ‖V‖) • V) := by
  refine ⟨-((1 / 2 * ρ * cd * am * (‖v - Spec.cross !₂[0, 0, oz] r‖ * 1000)) • (v - Spec.cross !₂[0, 0, oz] r)), _,
    ?_, rfl, ?_⟩
  · unfold Drag.acceleration requireAtmosphere
    simp only [hc, if_neg (not_lt.mpr hh), hρ, Drag.withOmega, Except.ok.injEq]
    have e0 : (v - Spec.cross !₂[0, 0, oz] r) 0 = v 0 - -oz * r 1 := by simp [Spec.cross]
    have e1 : (v - Spec.cross !₂[0, 0, oz] r) 1 = v 1 - oz * r 0 := by simp [Spec.cross]
    have e2 : (v - Spec.cross !₂[0, 0, oz] r) 2 = v 2 := by simp [Spec.cross]
    generalize v - Spec.cross !₂[0, 0, oz] r = w at e0 e1 e2
    simp only [Matrix.cons_val, ← e0, ← e1, ← e2, radius_eq]
    apply vec_eq <;> · simp [-mul_eq_mul_right_iff]; ring
  · rw [norm_smul, Real.norm_of_nonneg (by norm_num : (0 : ℝ) ≤ 1000), smul_neg, smul_smul, smul_smul]
    congr 2
    ring

/-- **C119**: with a positive density drag takes energy from the motion relative to the air. -/
theorem drag_dissipates {Γ : Type} {ctx : Context Γ} {density : ℝ → Except Err ℝ} (hc : ctx.atmosphere = some density)
    {cd am : ℝ} (h1 : 0 < cd) (h2 : 0 < am) (oz : ℝ) {r v : Vec3} (hh : 0 ≤ geodeticAltitude r wgsA wgsF) {ρ : ℝ}
    (hρ : density (geodeticAltitude r wgsA wgsF) = .ok ρ) (hpos : 0 < ρ) (hV : v ≠ Spec.cross !₂[0, 0, oz] r) :
    ∃ a, (Drag.withOmega cd am oz).acceleration r v ctx = .ok a ∧ inner ℝ a (v - Spec.cross !₂[0, 0, oz] r) < 0 := by
  obtain ⟨a, V, ha, hVe, hl⟩ := drag_law hc cd am oz r v hh hρ
  refine ⟨a, ha, ?_⟩
  have hW : 0 < ‖v - Spec.cross !₂[0, 0, oz] r‖ := norm_pos_iff.mpr (sub_ne_zero.mpr hV)
  have hVn : 0 < ‖V‖ := by rw [hVe, norm_smul, Real.norm_of_nonneg (by norm_num)]; positivity
  have : inner ℝ ((1000 : ℝ) • a) (v - Spec.cross !₂[0, 0, oz] r)
      = -((1 / 2 * ρ * cd * am * ‖V‖) * 1000 * ‖v - Spec.cross !₂[0, 0, oz] r‖ ^ 2) := by
    rw [hl, hVe, smul_smul, inner_neg_left, real_inner_smul_left, real_inner_self_eq_norm_sq, ← hVe]
  rw [real_inner_smul_left] at this
  have hp : 0 < (1 / 2 * ρ * cd * am * ‖V‖) * 1000 * ‖v - Spec.cross !₂[0, 0, oz] r‖ ^ 2 := by positivity
  linarith

/-- **C119**: what drag refuses: a missing atmosphere first, then a point below the surface, then whatever the atmosphere
refuses. -/
theorem drag_errors {Γ : Type} (ctx : Context Γ) (d : Drag) (r v : Vec3) :
    (ctx.atmosphere = none → d.acceleration r v ctx = .error .atmosphere) ∧
    (∀ density, ctx.atmosphere = some density → geodeticAltitude r wgsA wgsF < 0 →
      d.acceleration r v ctx = .error (.altitudeBelowSurface (geodeticAltitude r wgsA wgsF))) ∧
    (∀ density e, ctx.atmosphere = some density → 0 ≤ geodeticAltitude r wgsA wgsF →
      density (geodeticAltitude r wgsA wgsF) = .error e → d.acceleration r v ctx = .error e) := by
  refine ⟨fun h => ?_, fun density h h0 => ?_, fun density e h h0 he => ?_⟩
  · simp [Drag.acceleration, requireAtmosphere, h]
  · simp [Drag.acceleration, requireAtmosphere, h, h0]
  · simp [Drag.acceleration, requireAtmosphere, h, not_lt.mpr h0, he]

/-- **C119**, **C122**: a satellite more than a hundred-thousandth of a millimetre above the ellipsoid is never refused, and the
density is taken at its distance from the ellipsoid up to 1e-20 of the Earth's size. -/
theorem drag_above {r : Vec3} (hx : 1 ≤ r 0 ^ 2 / 6378.137 ^ 2 + r 1 ^ 2 / 6378.137 ^ 2
      + r 2 ^ 2 / (6378.137 * (1 - 1 / 298.257223563)) ^ 2)
    (hd : 1e-11 ≤ Metric.infDist r (Spec.solid 6378.137 (6378.137 * (1 - 1 / 298.257223563)))) :
    0 ≤ geodeticAltitude r wgsA wgsF ∧
    |geodeticAltitude r wgsA wgsF - Metric.infDist r (Spec.solid 6378.137 (6378.137 * (1 - 1 / 298.257223563)))|
      ≤ 1e-20 * (6378.137 + Metric.infDist r (Spec.solid 6378.137 (6378.137 * (1 - 1 / 298.257223563)))) := by
  have h := altitude_distance (a := wgsA) (f := wgsF) (by unfold wgsA; norm_num) (by unfold wgsF; norm_num)
    (by unfold wgsF; norm_num) r hx
  have hw : wgsA = 6378.137 := rfl
  have hf : wgsF = 1 / 298.257223563 := rfl
  have e : Spec.solid wgsA (wgsA * (1 - wgsF)) = Spec.solid 6378.137 (6378.137 * (1 - 1 / 298.257223563)) := by rw [hw, hf]
  rw [e] at h
  generalize Metric.infDist r (Spec.solid 6378.137 (6378.137 * (1 - 1 / 298.257223563))) = D at h hd
  rw [hw, hf] at h ⊢
  refine ⟨?_, h⟩
  have h1 := (abs_le.mp h).1
  generalize geodeticAltitude r 6378.137 (1 / 298.257223563) = A at h1 ⊢
  norm_num at h1 hd ⊢
  linarith

/-- **C119**, finding: the rotation vector is public, yet its first two components are ignored: a satellite moving with a gas
that turns about the first axis still feels a force. -/
theorem tilted_rotation_ignored {Γ : Type} : ∃ (ctx : Context Γ) (d : Drag) (r v a : Vec3), v = Spec.cross d.omega r ∧
    d.acceleration r v ctx = .ok a ∧ a ≠ 0 := by
  have hx : (1 : ℝ) ≤ (!₂[0, 7000, 0] : Vec3) 0 ^ 2 / wgsA ^ 2 + (!₂[0, 7000, 0] : Vec3) 1 ^ 2 / wgsA ^ 2
      + (!₂[0, 7000, 0] : Vec3) 2 ^ 2 / (wgsA * (1 - wgsF)) ^ 2 := by
    simp [wgsA]; norm_num
  refine ⟨{ atmosphere := some (constantDensity 1) }, ⟨2, 1, !₂[1, 0, 0]⟩, !₂[0, 7000, 0], !₂[0, 0, 7000], ?_⟩
  have hh : 0 ≤ geodeticAltitude !₂[0, 7000, 0] wgsA wgsF := by
    refine (drag_above hx ?_).1
    have hne : (Spec.solid wgsA (wgsA * (1 - wgsF))).Nonempty := ⟨0, by simp [Spec.solid]⟩
    refine (show (1e-11 : ℝ) ≤ 500 by norm_num).trans ?_
    show 500 ≤ Metric.infDist _ (Spec.solid wgsA (wgsA * (1 - wgsF)))
    rw [Metric.le_infDist hne]
    intro y hy
    have h1 : |y 1| ≤ wgsA := by
      have hw : (0 : ℝ) < wgsA := by unfold wgsA; norm_num
      simp only [Spec.solid, Set.mem_setOf_eq] at hy
      have : y 1 ^ 2 / wgsA ^ 2 ≤ 1 := by
        have h2 : 0 ≤ y 0 ^ 2 / wgsA ^ 2 := by positivity
        have h3 : 0 ≤ y 2 ^ 2 / (wgsA * (1 - wgsF)) ^ 2 := by positivity
        linarith
      rw [div_le_one (by positivity)] at this
      exact abs_le_of_sq_le_sq this hw.le
    have h2 : |(!₂[0, 7000, 0] - y : Vec3) 1| ≤ ‖(!₂[0, 7000, 0] - y : Vec3)‖ := by
      rw [← Real.norm_eq_abs]
      exact PiLp.norm_apply_le _ _
    rw [dist_eq_norm]
    have h3 := (abs_le.mp h1).2
    have h4 := le_abs_self ((!₂[0, 7000, 0] - y : Vec3) 1)
    have h5 : (!₂[0, 7000, 0] - y : Vec3) 1 = 7000 - y 1 := by simp
    rw [h5] at h4 h2
    have : wgsA = 6378.137 := rfl
    rw [this] at h3
    norm_num at h3
    linarith
  refine ⟨!₂[0, 0, -(49000000000 : ℝ)], ?_, ?_, ?_⟩
  · apply vec_eq <;> simp [Spec.cross]
  · have e : Real.sqrt ((7000 : ℝ) * 7000) = 7000 := Real.sqrt_mul_self (by norm_num)
    simp [Drag.acceleration, requireAtmosphere, not_lt.mpr hh, constantDensity, e]
    norm_num
  · intro h
    have := congrArg (fun x : Vec3 => x 2) h
    simp at this

/-! ## Radiation pressure -/

/-- **C120**: the light factors are those of an Earth of 6378.137 km and a Sun of 695700 km. -/
theorem light_factors {sat sun : Vec3} (hsun : sun ≠ 0) :
    Eclipse.none.factor sat sun = 1 ∧
    (6378.137 ≤ ‖sat‖ → (Eclipse.cylindrical.factor sat sun = 0 ↔ Spec.Shaded sat ((1 / ‖sun‖) • sun) 6378.137) ∧
      (Eclipse.cylindrical.factor sat sun = 1 ↔ ¬ Spec.Shaded sat ((1 / ‖sun‖) • sun) 6378.137)) ∧
    (6378.137 < ‖sat‖ → 695700 < ‖sun - sat‖ →
      Mission.Spec.IsCovered (Real.arcsin (695700 / ‖sun - sat‖)) (Real.arcsin (6378.137 / ‖sat‖))
        (InnerProductGeometry.angle (sun - sat) (0 - sat)) (1 - Eclipse.conical.factor sat sun)) :=
  ⟨rfl, fun h => cylindrical_exact hsun h (by unfold earthKm; norm_num),
    fun h1 h2 => (conical_covered (R := 6378.137) (sr := 695700) (by norm_num) (by norm_num) h1 h2).1⟩

/-- **C120**: the acceleration by light points away from the Sun; its size is the light factor times the pressure at the
distance, times the coefficient and the area-to-mass ratio, in km/s². -/
theorem srp_law {Γ : Type} {ctx : Context Γ} {eph : Ephemeris} (hc : ctx.ephemeris = some eph) (model : Eclipse) (cr am : ℝ)
    (rot : Vec3 →ₗ[ℝ] Vec3) {jd : ℝ} {s e : Vec3} (hs : eph.sun jd = some s) (he : eph.earth jd = some e) (sat sun : Vec3)
    (hsun : sun = auKm • rot (s - e)) (hne : sat ≠ sun) :
    ∃ a, srp model cr am rot sat jd ctx = .ok a ∧
      (1000 : ℝ) • a = (model.factor sat sun * cr * (4.56e-6 * (149597870.7 / ‖sat - sun‖) ^ 2) * am) •
        ((1 / ‖sat - sun‖) • (sat - sun)) := by
  have hd : 0 < ‖sat - sun‖ := norm_pos_iff.mpr (sub_ne_zero.mpr hne)
  have hvec : (!₂[sat 0 - sun 0, sat 1 - sun 1, sat 2 - sun 2] : Vec3) = sat - sun := by
    apply vec_eq <;> simp
  have hval : srp model cr am rot sat jd ctx = .ok !₂[
      model.factor sat sun * cr * pressure * (auKm * auKm / (‖sat - sun‖ * ‖sat - sun‖)) * am / 1000 * (sat - sun) 0 * (1 / ‖sat - sun‖),
      model.factor sat sun * cr * pressure * (auKm * auKm / (‖sat - sun‖ * ‖sat - sun‖)) * am / 1000 * (sat - sun) 1 * (1 / ‖sat - sun‖),
      model.factor sat sun * cr * pressure * (auKm * auKm / (‖sat - sun‖ * ‖sat - sun‖)) * am / 1000 * (sat - sun) 2 * (1 / ‖sat - sun‖)] := by
    unfold srp requireEphemeris sunGeocentric
    simp only [hc, hs, he, ← hsun, hvec, if_neg hd.ne']
    rfl
  refine ⟨_, hval, ?_⟩
  apply vec_eq <;> · simp [pressure, auKm]; field_simp

/-- **C120**: no force without a position of the Sun, no force in the shadow. -/
theorem srp_errors {Γ : Type} (ctx : Context Γ) (model : Eclipse) (cr am : ℝ) (rot : Vec3 →ₗ[ℝ] Vec3) (sat : Vec3) (jd : ℝ) :
    (ctx.ephemeris = none → srp model cr am rot sat jd ctx = .error (.ephemerisUnavailable "(any)")) ∧
    (∀ eph, ctx.ephemeris = some eph → eph.sun jd = none →
      srp model cr am rot sat jd ctx = .error (.ephemerisUnavailable "Sun")) ∧
    (∀ eph s, ctx.ephemeris = some eph → eph.sun jd = some s → eph.earth jd = none →
      srp model cr am rot sat jd ctx = .error (.ephemerisUnavailable "Earth")) ∧
    (∀ eph s e, ctx.ephemeris = some eph → eph.sun jd = some s → eph.earth jd = some e →
      model.factor sat (auKm • rot (s - e)) = 0 → srp model cr am rot sat jd ctx = .ok 0) := by
  refine ⟨fun h => ?_, fun eph h h1 => ?_, fun eph s h h1 h2 => ?_, fun eph s e h h1 h2 h3 => ?_⟩
  · simp [srp, requireEphemeris, h]
  · simp [srp, requireEphemeris, sunGeocentric, h, h1]
  · simp [srp, requireEphemeris, sunGeocentric, h, h1, h2]
  · simp only [srp, requireEphemeris, sunGeocentric, h, h1, h2, h3]
    split_ifs
    · rfl
    · congr 1
      apply vec_eq <;> simp

end Verif.Forces
