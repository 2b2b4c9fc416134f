import Verif.Forces.Gravity
import Mathlib.Topology.Order.IntermediateValue
import Mathlib.Topology.MetricSpace.HausdorffDistance
import Mathlib.Analysis.SpecialFunctions.Trigonometric.Bounds

/-!
# The geodetic altitude

The Bowring iteration, analysed on the meridian: the point at height `h` over the point with parametric latitude `(C, S)`
of the ellipse with half-axes `a`, `a g`.  Distances of latitudes are measured by the sine of the difference; each step
squares them.
-/

namespace Verif.Forces

theorem atan2_cos_sin {x y : ℝ} (h : 0 < x ^ 2 + y ^ 2) :
    Real.cos (atan2 y x) = x / Real.sqrt (x ^ 2 + y ^ 2) ∧ Real.sin (atan2 y x) = y / Real.sqrt (x ^ 2 + y ^ 2) := by
  have hn : ‖(⟨x, y⟩ : ℂ)‖ = Real.sqrt (x ^ 2 + y ^ 2) := by
    rw [Complex.norm_def, Complex.normSq_mk]
    congr 1; ring
  have hne : (⟨x, y⟩ : ℂ) ≠ 0 := by
    intro he
    have h1 := congrArg Complex.re he
    have h2 := congrArg Complex.im he
    simp only [Complex.zero_re, Complex.zero_im] at h1 h2
    rw [h1, h2] at h
    simp at h
  unfold atan2
  rw [Complex.cos_arg hne, Complex.sin_arg, hn]
  exact ⟨rfl, rfl⟩

/-! Small facts, kept apart from the large contexts. -/

theorem ecc {g : ℝ} (h1 : 0.995 ≤ g) (h2 : g ≤ 1) : 0 ≤ 1 - g ^ 2 ∧ 1 - g ^ 2 ≤ 0.01 ∧ g ^ 2 ≤ 1 := by
  refine ⟨?_, ?_, ?_⟩ <;> nlinarith

theorem abs_one {x y : ℝ} (h : x ^ 2 + y ^ 2 = 1) : |x| ≤ 1 := by
  rw [abs_le]; constructor <;> nlinarith [sq_nonneg y]

theorem abs_one' {x y : ℝ} (h : x ^ 2 + y ^ 2 = 1) : |y| ≤ 1 := by
  rw [abs_le]; constructor <;> nlinarith [sq_nonneg x]

theorem half_one {x y : ℝ} (h : x ^ 2 + y ^ 2 = 1) : |x * y| ≤ 1 / 2 := by
  rw [abs_le]; constructor <;> nlinarith [sq_nonneg (x + y), sq_nonneg (x - y)]

theorem cos_large {s c : ℝ} (h : s ^ 2 + c ^ 2 = 1) (hs : |s| ≤ 0.1) (hc : 0 < c) : 0.9 ≤ c := by
  have h1 : s ^ 2 ≤ 0.01 := by
    rw [← sq_abs]
    nlinarith [abs_nonneg s]
  nlinarith

theorem cos_tiny {s c : ℝ} (h : s ^ 2 + c ^ 2 = 1) (hs : |s| ≤ 1e-40) (hc : 0 < c) : 0 ≤ 1 - c ∧ 1 - c ≤ 1e-40 := by
  have h1 : s ^ 2 ≤ 1e-40 := by
    rw [← sq_abs]
    nlinarith [abs_nonneg s]
  constructor
  · nlinarith [sq_nonneg s]
  · nlinarith

theorem dot_low {a g t u : ℝ} (ha : 0 < a) (h1 : 0.995 ≤ g) (h2 : g ≤ 1) (ht : |t| ≤ 1) (hu : |u| ≤ 1) :
    0.97 * a ≤ a * g - (1 - g ^ 2) * a * g * t + a * (1 - g ^ 2) / g * u := by
  obtain ⟨he0, he, -⟩ := ecc h1 h2
  have hg : 0 < g := by linarith
  have k1 : (1 - g ^ 2) * a * g * t ≤ 0.01 * a := by
    have h3 : (1 - g ^ 2) * a * g * t ≤ (1 - g ^ 2) * a * g * 1 :=
      mul_le_mul_of_nonneg_left (abs_le.mp ht).2 (by positivity)
    have h4 : (1 - g ^ 2) * a * g ≤ 0.01 * a * 1 := by gcongr
    linarith
  have k2 : -(0.011 * a) ≤ a * (1 - g ^ 2) / g * u := by
    have h1 : a * (1 - g ^ 2) / g * (-1) ≤ a * (1 - g ^ 2) / g * u :=
      mul_le_mul_of_nonneg_left (abs_le.mp hu).1 (by positivity)
    have h2 : a * (1 - g ^ 2) / g ≤ 0.011 * a := by
      rw [div_le_iff₀ hg]
      have : a * (1 - g ^ 2) ≤ a * 0.01 := by gcongr
      nlinarith
    linarith
  nlinarith

theorem frame_low {g x y : ℝ} (h : x ^ 2 + y ^ 2 = 1) (h1 : 0.995 ≤ g) (h2 : g ≤ 1) :
    g ^ 2 ≤ y ^ 2 + (g * x) ^ 2 := by
  nlinarith [mul_nonneg (sq_nonneg y) (ecc h1 h2).1]

/-- A point of the meridian plane at height `h` over the foot with parametric latitude `(C, S)`. -/
structure Over (a g C S d h p z : ℝ) : Prop where
  a_pos : 0 < a
  g_low : 0.995 ≤ g
  g_high : g ≤ 1
  unit : C ^ 2 + S ^ 2 = 1
  d_sq : d ^ 2 = g ^ 2 * C ^ 2 + S ^ 2
  d_pos : 0 < d
  h_nonneg : 0 ≤ h
  p_eq : p = C * (a + h * g / d)
  z_eq : z = S * (a * g + h / d)

theorem Over.d_le {a g C S d h p z : ℝ} (o : Over a g C S d h p z) : d ≤ 1 := by
  have h1 := o.d_sq; have h2 := o.unit; have h3 := o.g_high; have h4 := o.g_low; have := o.d_pos
  nlinarith [sq_nonneg C, mul_nonneg (sq_nonneg C) (by nlinarith : 0 ≤ 1 - g ^ 2)]

theorem Over.d_ge {a g C S d h p z : ℝ} (o : Over a g C S d h p z) : g ≤ d := by
  have h1 := o.d_sq; have h2 := o.unit; have h3 := o.g_high; have h4 := o.g_low; have := o.d_pos
  nlinarith [sq_nonneg S, mul_nonneg (sq_nonneg S) (by nlinarith : 0 ≤ 1 - g ^ 2)]

/-- The part of the error that one step leaves. -/
theorem residue {C S B T : ℝ} (h1 : C ^ 2 + S ^ 2 = 1) (h2 : B ^ 2 + T ^ 2 = 1) (hc : 0 ≤ B * C + T * S) :
    |C * T ^ 3 + S * B ^ 3 - C * S| ≤ 2.5 * |T * C - B * S| ^ 2 := by
  obtain ⟨s, hs⟩ : ∃ s, s = T * C - B * S := ⟨_, rfl⟩
  obtain ⟨c, hcd⟩ : ∃ c, c = B * C + T * S := ⟨_, rfl⟩
  rw [← hcd] at hc
  rw [← hs]
  have hT : T = s * C + c * S := by rw [hs, hcd]; linear_combination -T * h1
  have hB : B = c * C - s * S := by rw [hs, hcd]; linear_combination -B * h1
  have hsc : s ^ 2 + c ^ 2 = 1 := by
    rw [hs, hcd]
    linear_combination (B ^ 2 + T ^ 2) * h1 + h2
  have key : C * T ^ 3 + S * B ^ 3 - C * S = s ^ 3 * (C ^ 2 - S ^ 2) - C * S * ((1 - c) * (1 - 2 * c - 2 * c ^ 2)) := by
    rw [hT, hB]
    have e : C * (s * C + c * S) ^ 3 + S * (c * C - s * S) ^ 3
        = s ^ 3 * (C ^ 2 - S ^ 2) * (C ^ 2 + S ^ 2) + (3 * s ^ 2 * c + c ^ 3) * C * S * (C ^ 2 + S ^ 2) := by ring
    rw [e, h1]
    linear_combination (3 * c * C * S) * hsc
  have hs1 : |s| ≤ 1 := abs_one hsc
  have hc1 : c ≤ 1 := (abs_le.mp (abs_one' hsc)).2
  have h1c : 1 - c ≤ s ^ 2 := by nlinarith
  have hCS : |C * S| ≤ 1 / 2 := half_one h1
  have hdd : |C ^ 2 - S ^ 2| ≤ 1 := by rw [abs_le]; constructor <;> nlinarith [sq_nonneg C, sq_nonneg S]
  have hm : |(1 - c) * (1 - 2 * c - 2 * c ^ 2)| ≤ 3 * |s| ^ 2 := by
    have h3 : |1 - 2 * c - 2 * c ^ 2| ≤ 3 := by rw [abs_le]; constructor <;> nlinarith
    rw [abs_mul, abs_of_nonneg (by linarith : 0 ≤ 1 - c), sq_abs, mul_comm 3]
    exact mul_le_mul h1c h3 (abs_nonneg _) (sq_nonneg s)
  have h32 : |s| ^ 3 ≤ |s| ^ 2 := pow_le_pow_of_le_one (abs_nonneg _) hs1 (by norm_num)
  rw [key]
  calc |s ^ 3 * (C ^ 2 - S ^ 2) - C * S * ((1 - c) * (1 - 2 * c - 2 * c ^ 2))|
      ≤ |s ^ 3 * (C ^ 2 - S ^ 2)| + |C * S * ((1 - c) * (1 - 2 * c - 2 * c ^ 2))| := abs_sub _ _
    _ = |s| ^ 3 * |C ^ 2 - S ^ 2| + |C * S| * |(1 - c) * (1 - 2 * c - 2 * c ^ 2)| := by
        rw [abs_mul, abs_pow, abs_mul (C * S)]
    _ ≤ |s| ^ 2 * 1 + 1 / 2 * (3 * |s| ^ 2) := by
        apply add_le_add
        · exact mul_le_mul h32 hdd (abs_nonneg _) (by positivity)
        · exact mul_le_mul hCS hm (abs_nonneg _) (by norm_num)
    _ = _ := by ring

/-- The geodetic latitude of the foot, against which the iteration is measured. -/
noncomputable def Away (g C S d phi ε : ℝ) : Prop :=
  |Real.sin phi * (g * C / d) - Real.cos phi * (S / d)| ≤ ε ∧ 0 < Real.cos phi * (g * C / d) + Real.sin phi * (S / d)

theorem phi_step {a g C S d h p z : ℝ} (o : Over a g C S d h p z) {β : ℝ}
    (hc : 0 ≤ Real.cos β * C + Real.sin β * S) :
    Away g C S d (bowringPhi a (1 - g) p z β) (0.03 * |Real.sin β * C - Real.cos β * S| ^ 2) := by
  obtain ⟨ha, hg1, hg2, hu, hd, hdp, hh, hp, hz⟩ := o
  have hg : 0 < g := by linarith
  have hres := residue hu (by rw [← Real.sin_sq_add_cos_sq β]; ring) hc
  set B := Real.cos β with hB
  set T := Real.sin β with hT
  have hB1 : |B| ≤ 1 := Real.abs_cos_le_one β
  have hT1 : |T| ≤ 1 := Real.abs_sin_le_one β
  have hC1 : |C| ≤ 1 := abs_one hu
  have hS1 : |S| ≤ 1 := abs_one' hu
  unfold bowringPhi
  simp only [← hB, ← hT]
  set X := p - (2 * (1 - g) - (1 - g) * (1 - g)) * a * B ^ 3 with hX
  set Y := z + (a * a - a * (1 - (1 - g)) * (a * (1 - (1 - g)))) / (a * (1 - (1 - g)) * (a * (1 - (1 - g))))
    * (a * (1 - (1 - g))) * T ^ 3 with hY
  have hX' : X = p - (1 - g ^ 2) * a * B ^ 3 := by rw [hX]; ring
  have hY' : Y = z + a * (1 - g ^ 2) / g * T ^ 3 := by
    rw [hY]
    rw [show 1 - (1 - g) = g by ring]
    field_simp
  obtain ⟨he0, he1, -⟩ := ecc hg1 hg2
  clear_value X Y
  have hcross : Y * (g * C / d) - X * (S / d) = a * (1 - g ^ 2) / d * (C * T ^ 3 + S * B ^ 3 - C * S) := by
    rw [hX', hY', hp, hz]
    field_simp
    ring
  have hdot : X * (g * C / d) + Y * (S / d)
      = (a * g - (1 - g ^ 2) * a * g * (C * B ^ 3) + a * (1 - g ^ 2) / g * (S * T ^ 3)) / d + h := by
    have e1 : X * (g * C / d) + Y * (S / d) = (a * g * (C ^ 2 + S ^ 2) + h * (g ^ 2 * C ^ 2 + S ^ 2) / d
        - (1 - g ^ 2) * a * g * (C * B ^ 3) + a * (1 - g ^ 2) / g * (S * T ^ 3)) / d := by
      rw [hX', hY', hp, hz]
      field_simp
      ring
    rw [e1, hu, ← hd]
    field_simp
    ring
  have hCB : |C * B ^ 3| ≤ 1 := by
    rw [abs_mul, abs_pow]
    exact mul_le_one₀ hC1 (by positivity) (pow_le_one₀ (abs_nonneg _) hB1)
  have hST : |S * T ^ 3| ≤ 1 := by
    rw [abs_mul, abs_pow]
    exact mul_le_one₀ hS1 (by positivity) (pow_le_one₀ (abs_nonneg _) hT1)
  have hdotlow : 0.97 * a / d ≤ X * (g * C / d) + Y * (S / d) := by
    rw [hdot]
    have k3 := dot_low ha hg1 hg2 hCB hST
    have := (div_le_div_iff_of_pos_right hdp).mpr k3
    linarith
  have hdotpos : 0 < X * (g * C / d) + Y * (S / d) := lt_of_lt_of_le (by positivity) hdotlow
  have hunit : (g * C / d) ^ 2 + (S / d) ^ 2 = 1 := by
    rw [div_pow, div_pow, ← add_div, mul_pow, ← hd, div_self (by positivity)]
  have hsum : (X * (g * C / d) + Y * (S / d)) ^ 2 + (Y * (g * C / d) - X * (S / d)) ^ 2 = X ^ 2 + Y ^ 2 := by
    linear_combination (X ^ 2 + Y ^ 2) * hunit
  have hR : 0 < X ^ 2 + Y ^ 2 := by
    rw [← hsum]
    exact add_pos_of_pos_of_nonneg (pow_pos hdotpos 2) (sq_nonneg _)
  obtain ⟨hcos, hsin⟩ := atan2_cos_sin hR
  set R := Real.sqrt (X ^ 2 + Y ^ 2) with hRdef
  have hR0 : 0 < R := Real.sqrt_pos.mpr hR
  have hRge : X * (g * C / d) + Y * (S / d) ≤ R := by
    apply Real.le_sqrt_of_sq_le
    linarith [sq_nonneg (Y * (g * C / d) - X * (S / d))]
  unfold Away
  rw [hcos, hsin]
  constructor
  · have e : Y / R * (g * C / d) - X / R * (S / d) = (Y * (g * C / d) - X * (S / d)) / R := by ring
    rw [e, abs_div, abs_of_pos hR0, div_le_iff₀ hR0, hcross, abs_mul, abs_of_nonneg (by positivity)]
    set s3 := |T * C - B * S| ^ 2 with hs3
    have hs30 : 0 ≤ s3 := by positivity
    have m1 : a * (1 - g ^ 2) / d * |C * T ^ 3 + S * B ^ 3 - C * S| ≤ a * 0.01 / d * (2.5 * s3) := by
      apply mul_le_mul _ hres (abs_nonneg _) (by positivity)
      apply (div_le_div_iff_of_pos_right hdp).mpr
      exact mul_le_mul_of_nonneg_left he1 ha.le
    have m2 : a * 0.01 / d * (2.5 * s3) ≤ 0.03 * s3 * (0.97 * a / d) := by
      have : a * 0.01 / d * (2.5 * s3) = 0.025 * (a / d * s3) := by ring
      have h2 : 0.03 * s3 * (0.97 * a / d) = 0.0291 * (a / d * s3) := by ring
      have h3 : 0 ≤ a / d * s3 := by positivity
      rw [this, h2]
      linarith
    have m3 : 0.03 * s3 * (0.97 * a / d) ≤ 0.03 * s3 * R :=
      mul_le_mul_of_nonneg_left (hdotlow.trans hRge) (by positivity)
    linarith
  · have e : X / R * (g * C / d) + Y / R * (S / d) = (X * (g * C / d) + Y * (S / d)) / R := by ring
    rw [e]
    positivity

/-- One iteration squares the error of the parametric latitude. -/
theorem beta_step {a g C S d h p z : ℝ} (o : Over a g C S d h p z) {β : ℝ}
    (hc : 0 ≤ Real.cos β * C + Real.sin β * S) :
    |Real.sin (bowringStep a (1 - g) p z β) * C - Real.cos (bowringStep a (1 - g) p z β) * S|
      ≤ 0.04 * |Real.sin β * C - Real.cos β * S| ^ 2 ∧
    0 ≤ Real.cos (bowringStep a (1 - g) p z β) * C + Real.sin (bowringStep a (1 - g) p z β) * S := by
  obtain ⟨hA, hP⟩ := phi_step o hc
  have hd1 := o.d_le
  obtain ⟨ha, hg1, hg2, hu, hd, hdp, hh, hp, hz⟩ := o
  have hg : 0 < g := by linarith
  unfold bowringStep
  simp only
  set phi := bowringPhi a (1 - g) p z β with hphi
  rw [show 1 - (1 - g) = g by ring]
  have hpy := Real.sin_sq_add_cos_sq phi
  have hWl := frame_low hpy hg1 hg2
  have hWp : 0 < Real.cos phi ^ 2 + (g * Real.sin phi) ^ 2 := lt_of_lt_of_le (by positivity) hWl
  obtain ⟨hcos, hsin⟩ := atan2_cos_sin hWp
  rw [hcos, hsin]
  set W := Real.sqrt (Real.cos phi ^ 2 + (g * Real.sin phi) ^ 2) with hW
  have hW0 : 0 < W := Real.sqrt_pos.mpr hWp
  have hWg : g ≤ W := Real.le_sqrt_of_sq_le hWl
  set s3 := |Real.sin β * C - Real.cos β * S| ^ 2 with hs3
  have hs30 : 0 ≤ s3 := by positivity
  have hs31 : s3 ≤ 1 := by
    apply pow_le_one₀ (abs_nonneg _)
    have hb := Real.sin_sq_add_cos_sq β
    apply abs_one (y := Real.cos β * C + Real.sin β * S)
    linear_combination (Real.sin β ^ 2 + Real.cos β ^ 2) * hu + hb
  set sd := Real.sin phi * (g * C / d) - Real.cos phi * (S / d) with hsd
  set cd := Real.cos phi * (g * C / d) + Real.sin phi * (S / d) with hcd
  have hunit : (g * C / d) ^ 2 + (S / d) ^ 2 = 1 := by
    rw [div_pow, div_pow, ← add_div, mul_pow, ← hd, div_self (by positivity)]
  have hsc : sd ^ 2 + cd ^ 2 = 1 := by
    rw [hsd, hcd]
    linear_combination (Real.sin phi ^ 2 + Real.cos phi ^ 2) * hunit + hpy
  have hcd9 : 0.9 ≤ cd := cos_large hsc (by linarith) hP
  constructor
  · have e : g * Real.sin phi / W * C - Real.cos phi / W * S = d / W * sd := by
      rw [hsd]
      field_simp
    rw [e, abs_mul, abs_of_pos (by positivity : 0 < d / W)]
    have h1 : d / W ≤ 1.1 := by
      rw [div_le_iff₀ hW0]
      linarith
    calc d / W * |sd| ≤ 1.1 * (0.03 * s3) := mul_le_mul h1 hA (abs_nonneg _) (by norm_num)
      _ ≤ 0.04 * s3 := by linarith
  · have e : Real.cos phi / W * C + g * Real.sin phi / W * S
        = d / (g * W) * (cd - (1 - g ^ 2) * (Real.sin phi * (S / d))) := by
      rw [hcd]
      field_simp
      ring
    rw [e]
    apply mul_nonneg (by positivity)
    have hSd : |S / d| ≤ 1 := abs_one' hunit
    have h1 : |Real.sin phi * (S / d)| ≤ 1 := by
      rw [abs_mul]
      exact mul_le_one₀ (Real.abs_sin_le_one _) (abs_nonneg _) hSd
    have h2 := (abs_le.mp h1).2
    obtain ⟨he0, he, -⟩ := ecc hg1 hg2
    have h3 : (1 - g ^ 2) * (Real.sin phi * (S / d)) ≤ (1 - g ^ 2) * 1 := mul_le_mul_of_nonneg_left h2 he0
    linarith

/-- The first guess. -/
theorem beta_start {a g C S d h p z : ℝ} (o : Over a g C S d h p z) :
    |Real.sin (atan2 (z * a) (p * (a * g))) * C - Real.cos (atan2 (z * a) (p * (a * g))) * S| ≤ 0.006 ∧
    0 ≤ Real.cos (atan2 (z * a) (p * (a * g))) * C + Real.sin (atan2 (z * a) (p * (a * g))) * S := by
  have hd1 := o.d_le
  have hdg := o.d_ge
  obtain ⟨ha, hg1, hg2, hu, hd, hdp, hh, hp, hz⟩ := o
  have hg : 0 < g := by linarith
  set X := p * (a * g) with hX
  set Y := z * a with hY
  have hcross : Y * C - X * S = a * h / d * (1 - g ^ 2) * (C * S) := by
    rw [hX, hY, hp, hz]
    field_simp
    ring
  have hdot : X * C + Y * S = a * (a * g + h * d) := by
    have : X * C + Y * S = a * (a * g * (C ^ 2 + S ^ 2) + h / d * (g ^ 2 * C ^ 2 + S ^ 2)) := by
      rw [hX, hY, hp, hz]
      field_simp
      ring
    rw [this, hu, ← hd]
    field_simp
  have hdpos : 0 < X * C + Y * S := by rw [hdot]; positivity
  have hsum : (X * C + Y * S) ^ 2 + (Y * C - X * S) ^ 2 = X ^ 2 + Y ^ 2 := by
    linear_combination (X ^ 2 + Y ^ 2) * hu
  have hR : 0 < X ^ 2 + Y ^ 2 := by
    rw [← hsum]
    exact add_pos_of_pos_of_nonneg (pow_pos hdpos 2) (sq_nonneg _)
  obtain ⟨hcos, hsin⟩ := atan2_cos_sin hR
  rw [hcos, hsin]
  set R := Real.sqrt (X ^ 2 + Y ^ 2) with hRdef
  have hR0 : 0 < R := Real.sqrt_pos.mpr hR
  have hRge : X * C + Y * S ≤ R := by
    apply Real.le_sqrt_of_sq_le
    linarith [sq_nonneg (Y * C - X * S)]
  constructor
  · rw [show Y / R * C - X / R * S = (Y * C - X * S) / R by ring, abs_div, abs_of_pos hR0, div_le_iff₀ hR0, hcross]
    obtain ⟨he0, he, -⟩ := ecc hg1 hg2
    have hCS : |C * S| ≤ 1 / 2 := half_one hu
    rw [abs_mul, abs_of_nonneg (by positivity)]
    have h1 : a * h / d * (1 - g ^ 2) * |C * S| ≤ a * h / d * 0.01 * (1 / 2) := by
      apply mul_le_mul _ hCS (abs_nonneg _) (by positivity)
      exact mul_le_mul_of_nonneg_left he (by positivity)
    have h2 : a * h / d * 0.01 * (1 / 2) ≤ 0.006 * (a * (h * d)) := by
      have hd2 : 0.99 ≤ d * d := by
        have : g * g ≤ d * d := mul_self_le_mul_self hg.le hdg
        linarith [(ecc hg1 hg2).2.1, pow_two g]
      have : a * h / d * 0.01 * (1 / 2) = 0.005 * (a * h) / d := by ring
      rw [this, div_le_iff₀ hdp]
      have k1 := mul_le_mul_of_nonneg_left hd2 (mul_nonneg ha.le hh)
      have k2 := mul_nonneg ha.le hh
      have k3 : 0.006 * (a * (h * d)) * d = 0.006 * (a * h * (d * d)) := by ring
      rw [k3]
      linarith
    have h3 : 0.006 * (a * (h * d)) ≤ 0.006 * R := by
      have : a * (h * d) ≤ X * C + Y * S := by
        rw [hdot, mul_add]
        linarith [mul_pos ha (mul_pos ha hg)]
      linarith
    linarith
  · rw [show X / R * C + Y / R * S = (X * C + Y * S) / R by ring]
    positivity

/-- The altitude from a latitude very close to that of the foot. -/
theorem altitude_close {a g C S d h p z : ℝ} (o : Over a g C S d h p z) {phi : ℝ} (hA : Away g C S d phi 1e-40) :
    |altitudeAt a (1 - g) p z phi - h| ≤ 1e-20 * (a + h) := by
  obtain ⟨h1, h2⟩ := hA
  have hd1 := o.d_le
  have hdg := o.d_ge
  obtain ⟨ha, hg1, hg2, hu, hd, hdp, hh, hp, hz⟩ := o
  have hg : 0 < g := by linarith
  obtain ⟨he0, he, hg21⟩ := ecc hg1 hg2
  set k := g * C / d with hk
  set l := S / d with hl
  set u := Real.cos phi with hcu
  set v := Real.sin phi with hsv
  have hpy : v ^ 2 + u ^ 2 = 1 := Real.sin_sq_add_cos_sq phi
  have hunit : k ^ 2 + l ^ 2 = 1 := by
    rw [hk, hl, div_pow, div_pow, ← add_div, mul_pow, ← hd, div_self (by positivity)]
  set sd := v * k - u * l with hsd
  set cd := u * k + v * l with hcd
  have hsc : sd ^ 2 + cd ^ 2 = 1 := by
    rw [hsd, hcd]
    linear_combination (v ^ 2 + u ^ 2) * hunit + hpy
  have hu' : u = k * cd - l * sd := by rw [hsd, hcd]; linear_combination -u * hunit
  have hv' : v = l * cd + k * sd := by rw [hsd, hcd]; linear_combination -v * hunit
  obtain ⟨hcd2, hcd1⟩ := cos_tiny hsc h1 h2
  have hk1 : |k| ≤ 1 := abs_one hunit
  have hl1 : |l| ≤ 1 := abs_one' hunit
  have hdu : |u - k| ≤ 2e-40 := by
    have : u - k = -(k * (1 - cd)) - l * sd := by rw [hu']; ring
    rw [this]
    calc |-(k * (1 - cd)) - l * sd| ≤ |-(k * (1 - cd))| + |l * sd| := abs_sub _ _
      _ = |k| * (1 - cd) + |l| * |sd| := by rw [abs_neg, abs_mul, abs_mul, abs_of_nonneg hcd2]
      _ ≤ 1 * 1e-40 + 1 * 1e-40 := by gcongr
      _ ≤ 2e-40 := by norm_num
  have hdv : |v - l| ≤ 2e-40 := by
    have : v - l = -(l * (1 - cd)) + k * sd := by rw [hv']; ring
    rw [this]
    calc |-(l * (1 - cd)) + k * sd| ≤ |-(l * (1 - cd))| + |k * sd| := abs_add_le _ _
      _ = |l| * (1 - cd) + |k| * |sd| := by rw [abs_neg, abs_mul, abs_mul, abs_of_nonneg hcd2]
      _ ≤ 1 * 1e-40 + 1 * 1e-40 := by gcongr
      _ ≤ 2e-40 := by norm_num
  -- the radius of curvature
  have hv1 : |v| ≤ 1 := Real.abs_sin_le_one _
  have hl2 : l ^ 2 ≤ 1 := by linarith [sq_nonneg k]
  have hv2 : v ^ 2 ≤ 1 := by linarith [sq_nonneg u]
  set q := 1 - (1 - g ^ 2) * v ^ 2 with hq
  set qs := 1 - (1 - g ^ 2) * l ^ 2 with hqs
  have hq99 : 0.99 ≤ q := by
    have : (1 - g ^ 2) * v ^ 2 ≤ 0.01 * 1 := by gcongr
    rw [hq]; linarith
  have hqs99 : 0.99 ≤ qs := by
    have : (1 - g ^ 2) * l ^ 2 ≤ 0.01 * 1 := by gcongr
    rw [hqs]; linarith
  have hqs' : qs = (g / d) ^ 2 := by
    have : l ^ 2 = S ^ 2 / d ^ 2 := by rw [hl, div_pow]
    rw [hqs, this, div_pow]
    field_simp
    linear_combination hd + g ^ 2 * hu
  have hsqs : Real.sqrt qs = g / d := by rw [hqs', Real.sqrt_sq (by positivity)]
  have hsq9 : 0.9 ≤ Real.sqrt q := Real.le_sqrt_of_sq_le (by norm_num; linarith)
  have hsqs9 : 0.9 ≤ Real.sqrt qs := Real.le_sqrt_of_sq_le (by norm_num; linarith)
  have hqd : |qs - q| ≤ 4e-42 := by
    have : qs - q = (1 - g ^ 2) * ((v - l) * (v + l)) := by rw [hq, hqs]; ring
    rw [this, abs_mul, abs_mul, abs_of_nonneg he0]
    have : |v + l| ≤ 2 := (abs_add_le _ _).trans (by linarith)
    calc (1 - g ^ 2) * (|v - l| * |v + l|) ≤ 0.01 * (2e-40 * 2) := by gcongr
      _ ≤ 4e-42 := by norm_num
  have hsd' : |Real.sqrt qs - Real.sqrt q| ≤ 4e-42 := by
    have e : (Real.sqrt qs - Real.sqrt q) * (Real.sqrt qs + Real.sqrt q) = qs - q := by
      have e1 := Real.mul_self_sqrt (show 0 ≤ qs by linarith)
      have e2 := Real.mul_self_sqrt (show 0 ≤ q by linarith)
      linear_combination e1 - e2
    have : |Real.sqrt qs - Real.sqrt q| * (Real.sqrt qs + Real.sqrt q) = |qs - q| := by
      rw [← e, abs_mul, abs_of_pos (by linarith : 0 < Real.sqrt qs + Real.sqrt q)]
    have h3 : |Real.sqrt qs - Real.sqrt q| * 1 ≤ |Real.sqrt qs - Real.sqrt q| * (Real.sqrt qs + Real.sqrt q) :=
      mul_le_mul_of_nonneg_left (by linarith) (abs_nonneg _)
    linarith
  set N := a / Real.sqrt q with hN
  set M := a * d / g with hM
  have hNM : |N - M| ≤ 1e-41 * a := by
    have e : N - M = a * (Real.sqrt qs - Real.sqrt q) / (Real.sqrt q * Real.sqrt qs) := by
      rw [hN, hM, show a * d / g = a / Real.sqrt qs by rw [hsqs]; field_simp]
      field_simp
    have hqq : 0 < Real.sqrt q * Real.sqrt qs := mul_pos (by linarith) (by linarith)
    rw [e, abs_div, abs_mul a, abs_of_pos ha, abs_of_pos hqq, div_le_iff₀ hqq]
    have h81 : 0.81 ≤ Real.sqrt q * Real.sqrt qs := by
      have := mul_le_mul hsq9 hsqs9 (by norm_num) (by linarith)
      norm_num at this ⊢
      exact this
    calc a * |Real.sqrt qs - Real.sqrt q| ≤ a * 4e-42 := by gcongr
      _ ≤ 1e-41 * a * 0.81 := by linarith
      _ ≤ _ := by gcongr
  have hM0 : 0 ≤ M := by positivity
  have hM1 : M ≤ 1.1 * a := by
    rw [hM, div_le_iff₀ hg]
    have k1 : a * d ≤ a * 1 := by gcongr
    have k2 : a * 0.995 ≤ a * g := by gcongr
    linarith
  have hpM : p = (M + h) * k := by rw [hp, hM, hk]; field_simp
  have hzM : z = (M * g ^ 2 + h) * l := by rw [hz, hM, hl]; field_simp
  unfold altitudeAt
  simp only [← hcu, ← hsv]
  have eq1 : 2 * (1 - g) - (1 - g) * (1 - g) = 1 - g ^ 2 := by ring
  rw [eq1, show 1 - (1 - g ^ 2) * v * v = q by rw [hq]; ring, ← hN]
  split
  · rename_i hbr
    have hune : u ≠ 0 := by
      intro h0; rw [h0, abs_zero] at hbr; norm_num at hbr
    have e : p / u - N - h = (M + h) * (k - u) / u - (N - M) := by
      rw [hpM]
      field_simp
      ring
    rw [e]
    have b1 : |(M + h) * (k - u) / u| ≤ (M + h) * 2e-30 := by
      rw [abs_div, abs_mul, abs_of_nonneg (by positivity : 0 ≤ M + h), div_le_iff₀ (abs_pos.mpr hune), abs_sub_comm]
      calc (M + h) * |u - k| ≤ (M + h) * 2e-40 := by gcongr
        _ = (M + h) * 2e-30 * 1e-10 := by ring
        _ ≤ _ := by gcongr
    calc |(M + h) * (k - u) / u - (N - M)| ≤ |(M + h) * (k - u) / u| + |N - M| := abs_sub _ _
      _ ≤ (M + h) * 2e-30 + 1e-41 * a := add_le_add b1 hNM
      _ ≤ 1e-20 * (a + h) := by
        have : (M + h) * 2e-30 ≤ (1.1 * a + h) * 2e-30 := by gcongr
        linarith
  · rename_i hbr
    push Not at hbr
    have hv9 : 0.9 ≤ |v| := by
      have hv0 : |v| ≠ 0 := by
        intro h0
        rw [abs_eq_zero] at h0
        rw [h0] at hpy
        have h3 := mul_le_mul hbr hbr (abs_nonneg _) (by norm_num)
        rw [abs_mul_abs_self] at h3
        norm_num at h3
        linarith [pow_two u]
      exact cos_large (s := u) (by rw [sq_abs]; linarith) (by linarith) (lt_of_le_of_ne (abs_nonneg _) (Ne.symm hv0))
    have hvne : |v| ≠ 0 := by linarith
    have habs : |(|l| - |v|)| ≤ 2e-40 := (abs_abs_sub_abs_le_abs_sub l v).trans (by rw [abs_sub_comm]; exact hdv)
    have hz' : |z| = (M * g ^ 2 + h) * |l| := by rw [hzM, abs_mul, abs_of_nonneg (by positivity)]
    have e : |z| / |v| - N * (1 - (1 - g ^ 2)) - h = (M * g ^ 2 + h) * (|l| - |v|) / |v| - (N - M) * g ^ 2 := by
      rw [hz']
      field_simp
      ring
    rw [e]
    have b1 : |((M * g ^ 2 + h) * (|l| - |v|) / |v|)| ≤ (M + h) * 1e-30 := by
      rw [abs_div, abs_mul, abs_of_nonneg (by positivity : 0 ≤ M * g ^ 2 + h), abs_abs, div_le_iff₀ (by linarith)]
      have hle : M * g ^ 2 + h ≤ M + h := by
        have : M * g ^ 2 ≤ M * 1 := by gcongr
        linarith
      calc (M * g ^ 2 + h) * |(|l| - |v|)| ≤ (M + h) * 2e-40 := by gcongr
        _ ≤ (M + h) * 1e-30 * 0.9 := by
          have : 0 ≤ M + h := by positivity
          linarith
        _ ≤ _ := by gcongr
    have b2 : |(N - M) * g ^ 2| ≤ 1e-41 * a := by
      rw [abs_mul, abs_of_nonneg (by positivity : 0 ≤ g ^ 2)]
      have : |N - M| * g ^ 2 ≤ |N - M| * 1 := by gcongr
      linarith
    calc _ ≤ |((M * g ^ 2 + h) * (|l| - |v|) / |v|)| + |(N - M) * g ^ 2| := abs_sub _ _
      _ ≤ (M + h) * 1e-30 + 1e-41 * a := add_le_add b1 b2
      _ ≤ 1e-20 * (a + h) := by
        have : (M + h) * 1e-30 ≤ (1.1 * a + h) * 1e-30 := by gcongr
        linarith

/-- The altitude of a point over a foot. -/
theorem altitude_over {a g C S d h : ℝ} {x : Vec3}
    (o : Over a g C S d h (Real.sqrt (x 0 * x 0 + x 1 * x 1)) (x 2)) :
    |geodeticAltitude x a (1 - g) - h| ≤ 1e-20 * (a + h) := by
  unfold geodeticAltitude
  simp only
  apply altitude_close o
  rw [show a * (1 - (1 - g)) = a * g by ring]
  set p := Real.sqrt (x 0 * x 0 + x 1 * x 1)
  set z := x 2
  obtain ⟨s0, c0⟩ := beta_start o
  set b0 := atan2 (z * a) (p * (a * g))
  have cube : ∀ {y e : ℝ}, 0 ≤ y → y ≤ e → y ^ 2 ≤ e ^ 2 := fun h h' => pow_le_pow_left₀ h h' 2
  obtain ⟨s1, c1⟩ := beta_step o c0
  obtain ⟨s2, c2⟩ := beta_step o c1
  obtain ⟨s3, c3⟩ := beta_step o c2
  have t1 := s1.trans (mul_le_mul_of_nonneg_left (cube (abs_nonneg _) s0) (by norm_num))
  have t2 := s2.trans (mul_le_mul_of_nonneg_left (cube (abs_nonneg _) t1) (by norm_num))
  have t3 := s3.trans (mul_le_mul_of_nonneg_left (cube (abs_nonneg _) t2) (by norm_num))
  have e3 : (bowringStep a (1 - g) p z)^[3] b0 = bowringStep a (1 - g) p z (bowringStep a (1 - g) p z (bowringStep a (1 - g) p z b0)) := rfl
  rw [e3]
  obtain ⟨f1, f2⟩ := phi_step o c3
  refine ⟨f1.trans ?_, f2⟩
  have t4 := mul_le_mul_of_nonneg_left (cube (abs_nonneg _) t3) (by norm_num : (0 : ℝ) ≤ 0.03)
  refine t4.trans ?_
  norm_num

end Verif.Forces
