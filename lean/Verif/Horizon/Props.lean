import Verif.Horizon.Model
import Verif.Apparent.Props

/-!
# Azimuth conventions, horizontal coordinates and observed directions
-/

namespace Verif.Horizon

open Verif.Apparent (atan2 wrap)
open Verif.Apparent (cos_wrap sin_wrap wrap_range atan2_polar hour_angle frame_norm aberration_lorentz
  aberration_unit velocity_roundtrip)
open Verif.Apparent.Spec (up north east)
open scoped Matrix

/-! ## Specification -/

namespace Spec

/-- The cardinal points as vectors of the horizon plane: components along north and east. -/
def cardinal : Origin → ℝ × ℝ
  | .north => (1, 0)
  | .east => (0, 1)
  | .south => (-1, 0)
  | .west => (0, -1)

/-- A quarter turn clockwise seen from above: north to east, east to south. -/
def right (v : ℝ × ℝ) : ℝ × ℝ := (-v.2, v.1)

/-- The direction of an azimuth of `a` degrees: from the origin turn by `a` in the given sense. -/
noncomputable def bearing (c : Convention) (a : ℝ) : ℝ × ℝ :=
  let o := cardinal c.origin
  let q := match c.sense with
    | .clockwise => right o
    | .counterClockwise => right (right (right o))
  Real.cos (a * (Real.pi / 180)) • o + Real.sin (a * (Real.pi / 180)) • q

end Spec

open Spec

/-! ## Conventions -/

theorem normalize_range (x : ℝ) : 0 ≤ normalize x ∧ normalize x < 360 := by
  unfold normalize
  have h1 := Int.floor_le (x / 360)
  have h2 := Int.lt_floor_add_one (x / 360)
  constructor <;> linarith

theorem normalize_turns (x : ℝ) : ∃ k : ℤ, normalize x = x - k * 360 := ⟨_, rfl⟩

theorem cos_normalize (x : ℝ) :
    Real.cos (normalize x * (Real.pi / 180)) = Real.cos (x * (Real.pi / 180)) := by
  obtain ⟨k, hk⟩ := normalize_turns x
  rw [hk]
  have : (x - k * 360) * (Real.pi / 180) = x * (Real.pi / 180) - k * (2 * Real.pi) := by ring
  rw [this, Real.cos_sub_int_mul_two_pi]

theorem sin_normalize (x : ℝ) :
    Real.sin (normalize x * (Real.pi / 180)) = Real.sin (x * (Real.pi / 180)) := by
  obtain ⟨k, hk⟩ := normalize_turns x
  rw [hk]
  have : (x - k * 360) * (Real.pi / 180) = x * (Real.pi / 180) - k * (2 * Real.pi) := by ring
  rw [this, Real.sin_sub_int_mul_two_pi]

theorem bearing_normalize (c : Convention) (x : ℝ) : bearing c (normalize x) = bearing c x := by
  unfold bearing
  rw [cos_normalize, sin_normalize]

/-- Adding or subtracting quarter turns. -/
theorem quarter (x : ℝ) :
    (Real.cos ((x + 90) * (Real.pi / 180)) = -Real.sin (x * (Real.pi / 180))
      ∧ Real.sin ((x + 90) * (Real.pi / 180)) = Real.cos (x * (Real.pi / 180)))
    ∧ (Real.cos ((x - 90) * (Real.pi / 180)) = Real.sin (x * (Real.pi / 180))
      ∧ Real.sin ((x - 90) * (Real.pi / 180)) = -Real.cos (x * (Real.pi / 180))) := by
  have e1 : (x + 90) * (Real.pi / 180) = x * (Real.pi / 180) + Real.pi / 2 := by ring
  have e2 : (x - 90) * (Real.pi / 180) = x * (Real.pi / 180) - Real.pi / 2 := by ring
  rw [e1, e2]
  exact ⟨⟨Real.cos_add_pi_div_two _, Real.sin_add_pi_div_two _⟩, Real.cos_sub_pi_div_two _,
    Real.sin_sub_pi_div_two _⟩

/-- In terms of north-clockwise azimuths. -/
theorem bearing_native (c : Convention) (a : ℝ) :
    bearing c a = bearing northClockwise (match c.sense with
      | .clockwise => a + offset c.origin
      | .counterClockwise => -a + offset c.origin) := by
  have s2 : ∀ x : ℝ, (x + 180) = (x + 90) + 90 := fun x => by ring
  have s3 : ∀ x : ℝ, (x + 270) = ((x + 90) + 90) + 90 := fun x => by ring
  have n1 : ∀ x, Real.cos (-x * (Real.pi / 180)) = Real.cos (x * (Real.pi / 180)) := fun x => by
    rw [neg_mul, Real.cos_neg]
  have n2 : ∀ x, Real.sin (-x * (Real.pi / 180)) = -Real.sin (x * (Real.pi / 180)) := fun x => by
    rw [neg_mul, Real.sin_neg]
  rcases c with ⟨o, s⟩
  cases o <;> cases s <;>
    simp only [bearing, northClockwise, offset, cardinal, right, s2, s3, (quarter _).1.1,
      (quarter _).1.2, n1, n2, add_zero] <;>
    ext <;> simp

theorem native_injective {a b : ℝ} (h : bearing northClockwise a = bearing northClockwise b) :
    ∃ k : ℤ, a = b + k * 360 := by
  simp only [bearing, northClockwise, cardinal, right, Prod.smul_mk, smul_eq_mul, mul_one,
    mul_zero, Prod.mk_add_mk, add_zero, zero_add, Prod.mk.injEq, neg_zero] at h
  have hang : ((a * (Real.pi / 180) : ℝ) : Real.Angle) = ((b * (Real.pi / 180) : ℝ) : Real.Angle) :=
    Real.Angle.cos_sin_inj h.1 h.2
  rw [Real.Angle.angle_eq_iff_two_pi_dvd_sub] at hang
  obtain ⟨k, hk⟩ := hang
  refine ⟨k, ?_⟩
  have hp := Real.pi_pos.ne'
  field_simp at hk
  nlinarith [Real.pi_pos]

theorem range_unique {a b : ℝ} {k : ℤ} (h : a = b + k * 360) (ha : 0 ≤ a) (ha' : a < 360)
    (hb : 0 ≤ b) (hb' : b < 360) : a = b := by
  have : k = 0 := by
    have h1 : (k : ℝ) < 1 := by linarith
    have h2 : (-1 : ℝ) < k := by linarith
    have h3 : k < 1 := by exact_mod_cast h1
    have h4 : -1 < k := by exact_mod_cast h2
    omega
  rw [h, this]
  simp

theorem bearing_injective {c : Convention} {a b : ℝ} (h : bearing c a = bearing c b)
    (ha : 0 ≤ a) (ha' : a < 360) (hb : 0 ≤ b) (hb' : b < 360) : a = b := by
  rw [bearing_native c a, bearing_native c b] at h
  obtain ⟨k, hk⟩ := native_injective h
  rcases hc : c.sense with _ | _ <;> rw [hc] at hk
  · exact range_unique (k := k) (by simp only at hk; linarith) ha ha' hb hb'
  · exact range_unique (k := -k) (by simp only at hk; push_cast; linarith) ha ha' hb hb'

/-- **C156.** A converted azimuth is the one azimuth in `[0°, 360°)` that points, in the new
convention, where the old one pointed in the old convention. -/
theorem converted_azimuth (az x : ℝ) (src dst : Convention) :
    convertAzimuth az src dst = x ↔ 0 ≤ x ∧ x < 360 ∧ bearing dst x = bearing src az := by
  have main : 0 ≤ convertAzimuth az src dst ∧ convertAzimuth az src dst < 360
      ∧ bearing dst (convertAzimuth az src dst) = bearing src az := by
    unfold convertAzimuth
    by_cases h : src = dst
    · rw [if_pos h, h]
      exact ⟨(normalize_range _).1, (normalize_range _).2, bearing_normalize _ _⟩
    · rw [if_neg h]
      refine ⟨(normalize_range _).1, (normalize_range _).2, ?_⟩
      rw [bearing_normalize, bearing_native dst, bearing_native src]
      rcases src with ⟨o, s⟩
      rcases dst with ⟨o', s'⟩
      congr 1
      cases s <;> cases s' <;> simp only <;> ring
  constructor
  · rintro rfl
    exact main
  · rintro ⟨h1, h2, h3⟩
    exact bearing_injective (main.2.2.trans h3.symm) main.1 main.2.1 h1 h2

/-- **C156.** Conversions compose: through a third convention or back, with nothing lost but whole
turns. -/
theorem conversions_compose (az : ℝ) (a b c : Convention) :
    convertAzimuth (convertAzimuth az a b) b c = convertAzimuth az a c
      ∧ convertAzimuth (convertAzimuth az a b) b a = normalize az := by
  have h := (converted_azimuth az _ a b).mp rfl
  have k := (converted_azimuth az _ a c).mp rfl
  refine ⟨?_, ?_⟩
  · rw [converted_azimuth]
    exact ⟨k.1, k.2.1, k.2.2.trans h.2.2.symm⟩
  · rw [converted_azimuth]
    exact ⟨(normalize_range _).1, (normalize_range _).2,
      (bearing_normalize _ _).trans h.2.2.symm⟩

/-- **C156.** The shorthands are the conversions they stand for. -/
theorem shorthands (az : ℝ) :
    flipNorthSouth az = convertAzimuth az northClockwise southClockwise
      ∧ flipNorthSouth az = convertAzimuth az southClockwise northClockwise
      ∧ flipSense az = convertAzimuth az northClockwise northCounterClockwise
      ∧ flipSense az = convertAzimuth az northCounterClockwise northClockwise := by
  refine ⟨?_, ?_, ?_, ?_⟩
  · symm
    rw [converted_azimuth]
    refine ⟨(normalize_range _).1, (normalize_range _).2, ?_⟩
    rw [flipNorthSouth, bearing_normalize, bearing_native southClockwise]
    simp only [southClockwise, offset]
    have : az + 180 + 180 = az + (1 : ℤ) * 360 := by push_cast; ring
    rw [this, ← bearing_normalize, ← bearing_normalize northClockwise az]
    congr 1
    unfold normalize
    have e : (az + (1 : ℤ) * 360) / 360 = az / 360 + (1 : ℤ) := by push_cast; ring
    rw [e, Int.floor_add_intCast]
    push_cast
    ring
  · simp [flipNorthSouth, convertAzimuth, southClockwise, northClockwise, offset]
  · simp [flipSense, convertAzimuth, northCounterClockwise, northClockwise, offset]
  · simp [flipSense, convertAzimuth, northCounterClockwise, northClockwise, offset]

/-- **C156.** Directions and positions keep everything but the azimuth, and going to the native
convention and out again is the direct conversion. -/
theorem conversions_keep {S : Type} (d : Dir) (p : Pos S) (a b : Convention) :
    convertDirection d a b = ⟨d.alt, convertAzimuth d.az a b⟩
      ∧ directionFromNative (directionToNative d a) b = convertDirection d a b
      ∧ convertPosition p a b = ⟨p.site, p.alt, convertAzimuth p.az a b, p.distance⟩
      ∧ positionFromNative (positionToNative p a) b = convertPosition p a b := by
  refine ⟨rfl, ?_, rfl, ?_⟩
  · unfold directionFromNative directionToNative convertDirection
    rw [(conversions_compose d.az a northClockwise b).1]
  · unfold positionFromNative positionToNative convertPosition
    simp only
    rw [(conversions_compose p.az a northClockwise b).1]

/-- Due east is 90° from the north clockwise, 270° from the south clockwise, 0° from the east. -/
example : convertAzimuth 90 northClockwise southClockwise = 270
    ∧ convertAzimuth 90 northClockwise eastCounterClockwise = 0 := by
  unfold convertAzimuth
  rw [if_neg (by decide), if_neg (by decide)]
  constructor <;> norm_num [northClockwise, southClockwise, eastCounterClockwise, offset, normalize]

/-! ## Vectors and angles -/

theorem len_sq (v : V3) : len v ^ 2 = v 0 ^ 2 + v 1 ^ 2 + v 2 ^ 2 :=
  Real.sq_sqrt (by positivity)

theorem len_nonneg (v : V3) : 0 ≤ len v := Real.sqrt_nonneg _

theorem len_pos {v : V3} (h : v ≠ 0) : 0 < len v := by
  rcases (len_nonneg v).lt_or_eq with h1 | h1
  · exact h1
  · exfalso
    have h2 := len_sq v
    rw [← h1] at h2
    apply h
    have a0 : v 0 = 0 := by nlinarith [sq_nonneg (v 0), sq_nonneg (v 1), sq_nonneg (v 2)]
    have a1 : v 1 = 0 := by nlinarith [sq_nonneg (v 0), sq_nonneg (v 1), sq_nonneg (v 2)]
    have a2 : v 2 = 0 := by nlinarith [sq_nonneg (v 0), sq_nonneg (v 1), sq_nonneg (v 2)]
    funext i
    fin_cases i
    · exact a0
    · exact a1
    · exact a2

theorem len_cart (p a : ℝ) : len (toCart p a) = 1 := by
  unfold len toCart
  rw [Real.sqrt_eq_one]
  simp only [Matrix.cons_val_zero, Matrix.cons_val_one, Matrix.cons_val]
  have h1 := Real.sin_sq_add_cos_sq p
  have h2 := Real.sin_sq_add_cos_sq a
  calc (Real.cos p * Real.cos a) ^ 2 + (Real.cos p * Real.sin a) ^ 2 + Real.sin p ^ 2
      = Real.cos p ^ 2 * (Real.sin a ^ 2 + Real.cos a ^ 2) + Real.sin p ^ 2 := by ring
    _ = 1 := by rw [h2]; linarith

/-- The angles of a vector give back the vector. -/
theorem angles_vector {v : V3} (h : v ≠ 0) :
    Real.sin (polarOf v) = v 2 / len v
      ∧ Real.cos (polarOf v) * Real.cos (azimuthOf v) = v 0 / len v
      ∧ Real.cos (polarOf v) * Real.sin (azimuthOf v) = v 1 / len v := by
  have hr := len_pos h
  have hs := len_sq v
  have hz : |v 2 / len v| ≤ 1 := by
    rw [abs_div, abs_of_pos hr, div_le_one hr]
    apply abs_le_of_sq_le_sq _ hr.le
    nlinarith [sq_nonneg (v 0), sq_nonneg (v 1)]
  rw [abs_le] at hz
  have hc : Real.cos (polarOf v) = Real.sqrt (v 0 * v 0 + v 1 * v 1) / len v := by
    unfold polarOf
    rw [Real.cos_arcsin]
    have : 1 - (v 2 / len v) ^ 2 = (v 0 * v 0 + v 1 * v 1) / len v ^ 2 := by
      field_simp
      linarith
    rw [this, Real.sqrt_div (by nlinarith [sq_nonneg (v 0), sq_nonneg (v 1)]),
      Real.sqrt_sq hr.le]
  obtain ⟨p1, p2⟩ := atan2_polar (v 0) (v 1)
  refine ⟨Real.sin_arcsin hz.1 hz.2, ?_, ?_⟩
  · rw [hc, azimuthOf, cos_wrap, div_mul_eq_mul_div, p1]
  · rw [hc, azimuthOf, sin_wrap, div_mul_eq_mul_div, p2]

theorem cart_angles {v : V3} (h : v ≠ 0) :
    toCart (polarOf v) (azimuthOf v) = (1 / len v) • v := by
  obtain ⟨h1, h2, h3⟩ := angles_vector h
  funext i
  fin_cases i
  · show Real.cos _ * Real.cos _ = _ * v 0
    rw [h2]; ring
  · show Real.cos _ * Real.sin _ = _ * v 1
    rw [h3]; ring
  · show Real.sin _ = _ * v 2
    rw [h1]; ring

theorem unit_ne {v : V3} (h : len v = 1) : v ≠ 0 := by
  rintro rfl
  unfold len at h
  simp at h

theorem unit_angles {v : V3} (h : len v = 1) : toCart (polarOf v) (azimuthOf v) = v := by
  rw [cart_angles (unit_ne h), h]
  simp

/-! ## The observer's axes -/

/-- The components of a vector along north, east and zenith. -/
noncomputable def horizon (lat lst : ℝ) (v : V3) : V3 :=
  ![north lat lst ⬝ᵥ v, east lst ⬝ᵥ v, up lat lst ⬝ᵥ v]

/-- The vector with the given components along north, east and zenith. -/
noncomputable def celestial (lat lst : ℝ) (h : V3) : V3 :=
  h 0 • north lat lst + h 1 • east lst + h 2 • up lat lst

theorem horizon_celestial (lat lst : ℝ) (h : V3) : horizon lat lst (celestial lat lst h) = h := by
  have a := Real.sin_sq_add_cos_sq lat
  have b := Real.sin_sq_add_cos_sq lst
  have nn : north lat lst ⬝ᵥ north lat lst = 1 := by
    simp only [dotProduct, Fin.sum_univ_three, north, Matrix.cons_val_zero, Matrix.cons_val_one,
      Matrix.cons_val]
    have : -Real.sin lat * Real.cos lst * (-Real.sin lat * Real.cos lst)
        + -Real.sin lat * Real.sin lst * (-Real.sin lat * Real.sin lst)
        + Real.cos lat * Real.cos lat
        = Real.sin lat ^ 2 * (Real.sin lst ^ 2 + Real.cos lst ^ 2) + Real.cos lat ^ 2 := by ring
    rw [this, b]; linarith
  have uu : up lat lst ⬝ᵥ up lat lst = 1 := by
    simp only [dotProduct, Fin.sum_univ_three, up, Matrix.cons_val_zero, Matrix.cons_val_one,
      Matrix.cons_val]
    have : Real.cos lat * Real.cos lst * (Real.cos lat * Real.cos lst)
        + Real.cos lat * Real.sin lst * (Real.cos lat * Real.sin lst)
        + Real.sin lat * Real.sin lat
        = Real.cos lat ^ 2 * (Real.sin lst ^ 2 + Real.cos lst ^ 2) + Real.sin lat ^ 2 := by ring
    rw [this, b]; linarith
  have ee : east lst ⬝ᵥ east lst = 1 := by
    simp only [dotProduct, Fin.sum_univ_three, east, Matrix.cons_val_zero, Matrix.cons_val_one,
      Matrix.cons_val]
    linarith
  have nu : north lat lst ⬝ᵥ up lat lst = 0 := by
    simp only [dotProduct, Fin.sum_univ_three, north, up, Matrix.cons_val_zero,
      Matrix.cons_val_one, Matrix.cons_val]
    have : -Real.sin lat * Real.cos lst * (Real.cos lat * Real.cos lst)
        + -Real.sin lat * Real.sin lst * (Real.cos lat * Real.sin lst)
        + Real.cos lat * Real.sin lat
        = Real.sin lat * Real.cos lat * (1 - (Real.sin lst ^ 2 + Real.cos lst ^ 2)) := by ring
    rw [this, b]; ring
  have ne : north lat lst ⬝ᵥ east lst = 0 := by
    simp only [dotProduct, Fin.sum_univ_three, north, east, Matrix.cons_val_zero,
      Matrix.cons_val_one, Matrix.cons_val]
    ring
  have ue : up lat lst ⬝ᵥ east lst = 0 := by
    simp only [dotProduct, Fin.sum_univ_three, up, east, Matrix.cons_val_zero,
      Matrix.cons_val_one, Matrix.cons_val]
    ring
  have un : up lat lst ⬝ᵥ north lat lst = 0 := by rw [dotProduct_comm, nu]
  have en : east lst ⬝ᵥ north lat lst = 0 := by rw [dotProduct_comm, ne]
  have eu : east lst ⬝ᵥ up lat lst = 0 := by rw [dotProduct_comm, ue]
  funext i
  fin_cases i
  · show north lat lst ⬝ᵥ celestial lat lst h = h 0
    unfold celestial
    simp only [dotProduct_add, dotProduct_smul, nn, ne, nu, smul_eq_mul]
    ring
  · show east lst ⬝ᵥ celestial lat lst h = h 1
    unfold celestial
    simp only [dotProduct_add, dotProduct_smul, en, ee, eu, smul_eq_mul]
    ring
  · show up lat lst ⬝ᵥ celestial lat lst h = h 2
    unfold celestial
    simp only [dotProduct_add, dotProduct_smul, un, ue, uu, smul_eq_mul]
    ring

theorem len_horizon (lat lst : ℝ) (v : V3) : len (horizon lat lst v) = len v := by
  have := frame_norm (lat := lat) (lst := lst) (v := v) ⟨rfl, rfl, rfl⟩
  unfold len
  rw [← this]
  congr 1
  show (north lat lst ⬝ᵥ v) ^ 2 + (east lst ⬝ᵥ v) ^ 2 + (up lat lst ⬝ᵥ v) ^ 2 = _
  ring

theorem horizon_sub (lat lst : ℝ) (v w : V3) :
    horizon lat lst (v - w) = horizon lat lst v - horizon lat lst w := by
  funext i
  fin_cases i <;> simp [horizon, dotProduct_sub]

theorem horizon_smul (lat lst k : ℝ) (v : V3) :
    horizon lat lst (k • v) = k • horizon lat lst v := by
  funext i
  fin_cases i <;> simp [horizon, dotProduct_smul]

theorem len_zero {v : V3} (h : len v = 0) : v = 0 := by
  by_contra hv
  exact (len_pos hv).ne' h

theorem celestial_horizon (lat lst : ℝ) (v : V3) : celestial lat lst (horizon lat lst v) = v := by
  have h : horizon lat lst (celestial lat lst (horizon lat lst v) - v) = 0 := by
    rw [horizon_sub, horizon_celestial, sub_self]
  have hl := len_horizon lat lst (celestial lat lst (horizon lat lst v) - v)
  rw [h] at hl
  have h0 : len (0 : V3) = 0 := by unfold len; simp
  rw [h0] at hl
  exact sub_eq_zero.mp (len_zero hl.symm)

theorem len_celestial (lat lst : ℝ) (h : V3) : len (celestial lat lst h) = len h := by
  rw [← len_horizon lat lst, horizon_celestial]

/-- The hour-angle form of the components. -/
theorem horizon_angles (lat lst p a : ℝ) : horizon lat lst (toCart p a) =
    ![Real.sin p * Real.cos lat - Real.cos p * Real.cos (lst - a) * Real.sin lat,
      -Real.cos p * Real.sin (lst - a),
      Real.sin p * Real.sin lat + Real.cos p * Real.cos lat * Real.cos (lst - a)] := by
  have hf := hour_angle (lat := lat) (lst := lst) (ra := a) (dec := p) (rxy := Real.cos p)
    (v := toCart p a) rfl rfl rfl rfl
  simp only [cos_wrap, sin_wrap] at hf
  funext i
  fin_cases i
  · exact hf.north.symm
  · exact hf.east.symm
  · exact hf.zenith.symm

/-! ## True equator of date -/

theorem atan2_unit {x y z : ℝ} (h : x ^ 2 + y ^ 2 + z ^ 2 = 1) :
    toCart (atan2 z (Real.sqrt (x * x + y * y)))
      (wrap (if Real.sqrt (x * x + y * y) ≠ 0 then atan2 y x else 0)) = ![x, y, z] := by
  obtain ⟨p1, p2⟩ := atan2_polar (Real.sqrt (x * x + y * y)) z
  have hr : Real.sqrt (Real.sqrt (x * x + y * y) * Real.sqrt (x * x + y * y) + z * z) = 1 := by
    rw [Real.mul_self_sqrt (by nlinarith [sq_nonneg x, sq_nonneg y]), Real.sqrt_eq_one]
    linarith
  rw [hr, one_mul] at p1 p2
  obtain ⟨q1, q2⟩ := atan2_polar x y
  unfold toCart
  rw [p1, p2, cos_wrap, sin_wrap]
  by_cases h0 : Real.sqrt (x * x + y * y) = 0
  · have hs := Real.sq_sqrt (show 0 ≤ x * x + y * y by nlinarith [sq_nonneg x, sq_nonneg y])
    rw [h0] at hs
    have hx : x = 0 := by nlinarith [sq_nonneg x, sq_nonneg y]
    have hy : y = 0 := by nlinarith [sq_nonneg x, sq_nonneg y]
    rw [h0, hx, hy]
    simp
  · rw [if_pos h0, q1, q2]

/-- **C157.** The horizontal direction of a direction of the true equator of date has its
components along the observer's north, east and zenith. -/
theorem to_horizontal_axes (gast lat lon : ℝ) {v : V3} (h : len v = 1) :
    toHorizontal gast lat lon v
      = ![north lat (gast + lon) ⬝ᵥ v, east (gast + lon) ⬝ᵥ v, up lat (gast + lon) ⬝ᵥ v] := by
  have ha := horizon_angles lat (gast + lon) (polarOf v) (azimuthOf v)
  rw [unit_angles h] at ha
  have hl := len_horizon lat (gast + lon) v
  rw [ha, h] at hl
  unfold toHorizontal
  simp only
  have e1 : -Real.cos (gast + lon - azimuthOf v) * Real.cos (polarOf v) * Real.sin lat
      + Real.sin (polarOf v) * Real.cos lat
      = Real.sin (polarOf v) * Real.cos lat
        - Real.cos (polarOf v) * Real.cos (gast + lon - azimuthOf v) * Real.sin lat := by ring
  have e2 : -Real.sin (gast + lon - azimuthOf v) * Real.cos (polarOf v)
      = -Real.cos (polarOf v) * Real.sin (gast + lon - azimuthOf v) := by ring
  have e3 : Real.cos (gast + lon - azimuthOf v) * Real.cos (polarOf v) * Real.cos lat
      + Real.sin (polarOf v) * Real.sin lat
      = Real.sin (polarOf v) * Real.sin lat
        + Real.cos (polarOf v) * Real.cos lat * Real.cos (gast + lon - azimuthOf v) := by ring
  rw [e1, e2, e3, atan2_unit, ← ha]
  · rfl
  · unfold len at hl
    rw [Real.sqrt_eq_one] at hl
    exact hl

/-- **C157.** The equatorial direction of a horizontal direction is the one with those
components. -/
theorem to_equatorial_axes (gast lat lon : ℝ) {h : V3} (hh : len h = 1) :
    toEquatorial gast lat lon h
      = h 0 • north lat (gast + lon) + h 1 • east (gast + lon) + h 2 • up lat (gast + lon) := by
  have hu := unit_angles hh
  have h0 : Real.cos (polarOf h) * Real.cos (azimuthOf h) = h 0 := congrFun hu 0
  have h1 : Real.cos (polarOf h) * Real.sin (azimuthOf h) = h 1 := congrFun hu 1
  have h2 : Real.sin (polarOf h) = h 2 := congrFun hu 2
  have hl := hh
  unfold len at hl
  rw [Real.sqrt_eq_one] at hl
  have hs := Real.sin_sq_add_cos_sq lat
  obtain ⟨X, hX⟩ : ∃ X, X = h 2 * Real.cos lat - h 0 * Real.sin lat := ⟨_, rfl⟩
  obtain ⟨Z, hZ⟩ : ∃ Z, Z = Real.sin lat * h 2 + Real.cos lat * h 0 := ⟨_, rfl⟩
  have hnorm : X ^ 2 + h 1 ^ 2 + Z ^ 2 = 1 := by
    have : X ^ 2 + Z ^ 2 = (Real.sin lat ^ 2 + Real.cos lat ^ 2) * (h 0 ^ 2 + h 2 ^ 2) := by
      rw [hX, hZ]; ring
    rw [hs] at this
    linarith
  have hZ1 : |Z| ≤ 1 :=
    abs_le_of_sq_le_sq (by nlinarith [sq_nonneg X, sq_nonneg (h 1)]) zero_le_one
  rw [abs_le] at hZ1
  have d1 : Real.sin (Real.arcsin Z) = Z := Real.sin_arcsin hZ1.1 hZ1.2
  have d2 : Real.cos (Real.arcsin Z) = Real.sqrt (X * X + (-h 1) * (-h 1)) := by
    rw [Real.cos_arcsin]
    congr 1
    linarith
  obtain ⟨q1, q2⟩ := atan2_polar X (-h 1)
  unfold toEquatorial
  simp only
  have e1 : Real.sin lat * Real.sin (polarOf h)
      + Real.cos lat * Real.cos (polarOf h) * Real.cos (azimuthOf h) = Z := by
    rw [hZ, ← h0, ← h2]; ring
  have e2 : -Real.sin (azimuthOf h) * Real.cos (polarOf h) = -h 1 := by rw [← h1]; ring
  have e3 : Real.sin (polarOf h) * Real.cos lat
      - Real.cos (polarOf h) * Real.cos (azimuthOf h) * Real.sin lat = X := by
    rw [hX, h2, ← h0]
  rw [e1, e2, e3, min_eq_right hZ1.2, max_eq_right hZ1.1]
  unfold toCart
  rw [d1, d2, cos_wrap, sin_wrap, Real.cos_sub, Real.sin_sub]
  have f1 : ∀ a b : ℝ, Real.sqrt (X * X + (-h 1) * (-h 1))
      * (a * Real.cos (atan2 (-h 1) X) + b * Real.sin (atan2 (-h 1) X)) = a * X + b * (-h 1) := by
    intro a b
    rw [mul_add, mul_left_comm, q1, mul_left_comm, q2]
  have f2 : ∀ a b : ℝ, Real.sqrt (X * X + (-h 1) * (-h 1))
      * (a * Real.cos (atan2 (-h 1) X) - b * Real.sin (atan2 (-h 1) X)) = a * X - b * (-h 1) := by
    intro a b
    rw [mul_sub, mul_left_comm, q1, mul_left_comm, q2]
  rw [f1, f2, hX, hZ]
  funext i
  fin_cases i <;> simp [north, east, up] <;> ring

/-- **C157.** The two conversions are inverse to each other and keep lengths and angles: the
distance of two directions is the same before and after. -/
theorem horizontal_roundtrip (gast lat lon : ℝ) {v w : V3} (hv : len v = 1) (hw : len w = 1) :
    toEquatorial gast lat lon (toHorizontal gast lat lon v) = v
      ∧ toHorizontal gast lat lon (toEquatorial gast lat lon v) = v
      ∧ len (toHorizontal gast lat lon v - toHorizontal gast lat lon w) = len (v - w) := by
  have e1 : ∀ {v : V3}, len v = 1 →
      toHorizontal gast lat lon v = horizon lat (gast + lon) v :=
    fun h => to_horizontal_axes gast lat lon h
  have e2 : ∀ {v : V3}, len v = 1 →
      toEquatorial gast lat lon v = celestial lat (gast + lon) v :=
    fun h => to_equatorial_axes gast lat lon h
  refine ⟨?_, ?_, ?_⟩
  · rw [e1 hv, e2 (by rw [len_horizon, hv]), celestial_horizon]
  · rw [e2 hv, e1 (by rw [len_celestial, hv]), horizon_celestial]
  · rw [e1 hv, e1 hw, ← horizon_sub, len_horizon]

/-- **C157.** A position is turned as a whole: its components along north, east and zenith, and
back. -/
theorem horizontal_position (gast lat lon : ℝ) {p : V3} (hp : p ≠ 0) :
    toHorizontalPosition gast lat lon p
        = ![north lat (gast + lon) ⬝ᵥ p, east (gast + lon) ⬝ᵥ p, up lat (gast + lon) ⬝ᵥ p]
      ∧ toEquatorialPosition gast lat lon (toHorizontalPosition gast lat lon p) = p := by
  have hl := len_pos hp
  have hu : ∀ {q : V3}, q ≠ 0 → len ((1 / len q) • q) = 1 := by
    intro q hq
    rw [← cart_angles hq, len_cart]
  have e1 : ∀ {q : V3}, q ≠ 0 →
      toHorizontalPosition gast lat lon q = horizon lat (gast + lon) q := by
    intro q hq
    have hc := cart_angles hq
    have h1 : toHorizontal gast lat lon (toCart (polarOf q) (azimuthOf q))
        = horizon lat (gast + lon) (toCart (polarOf q) (azimuthOf q)) :=
      to_horizontal_axes gast lat lon (len_cart _ _)
    unfold toHorizontalPosition
    simp only
    rw [h1, unit_angles (by rw [len_horizon, len_cart]), hc, horizon_smul, smul_smul,
      mul_one_div_cancel (len_pos hq).ne', one_smul]
  have e2 : ∀ {q : V3}, q ≠ 0 →
      toEquatorialPosition gast lat lon q = celestial lat (gast + lon) q := by
    intro q hq
    have hc := cart_angles hq
    have h1 : toEquatorial gast lat lon (toCart (polarOf q) (azimuthOf q))
        = celestial lat (gast + lon) (toCart (polarOf q) (azimuthOf q)) :=
      to_equatorial_axes gast lat lon (len_cart _ _)
    unfold toEquatorialPosition
    simp only
    rw [h1, unit_angles (by rw [len_celestial, len_cart]), hc]
    have : celestial lat (gast + lon) ((1 / len q) • q)
        = (1 / len q) • celestial lat (gast + lon) q := by
      unfold celestial
      simp only [Pi.smul_apply, smul_eq_mul, smul_add, smul_smul]
    rw [this, smul_smul, mul_one_div_cancel (len_pos hq).ne', one_smul]
  refine ⟨e1 hp, ?_⟩
  rw [e1 hp, e2, celestial_horizon]
  intro h0
  have := len_horizon lat (gast + lon) p
  rw [h0] at this
  unfold len at this
  simp at this
  unfold len at hl
  rw [← this] at hl
  exact lt_irrefl _ hl

/-! ## Mean equator of date -/

/-- **C158.** The older conversion of cartesian positions gives the components along north, *west*
and zenith. -/
theorem mean_to_horizontal (gmst lat lon : ℝ) {p : V3} (hp : p ≠ 0) :
    meanToHorizontal gmst lat lon p = some
      ![north lat (gmst + lon) ⬝ᵥ p, -(east (gmst + lon) ⬝ᵥ p), up lat (gmst + lon) ⬝ᵥ p] := by
  have hr := len_pos hp
  obtain ⟨a1, a2, a3⟩ := angles_vector hp
  have hc := cart_angles hp
  have same : ∀ k : ℝ, 0 < k → atan2 (p 1 / k) (p 0 / k) = atan2 (p 1) (p 0) := by
    intro k hk
    unfold atan2
    have : (⟨p 0, p 1⟩ : ℂ) = (k : ℂ) * ⟨p 0 / k, p 1 / k⟩ := by
      apply Complex.ext <;> simp <;> field_simp
    rw [this, Complex.arg_real_mul _ hk]
  have hd : horizontalAngles gmst lat lon (atan2 (p 1) (p 0)) (polarOf p)
      = horizontalAngles gmst lat lon (azimuthOf p) (polarOf p) := by
    unfold horizontalAngles azimuthOf
    simp only [cos_wrap, sin_wrap]
    have t : ∀ x, Real.cos (gmst + lon - wrap x) = Real.cos (gmst + lon - x)
        ∧ Real.sin (gmst + lon - wrap x) = Real.sin (gmst + lon - x) := by
      intro x
      rw [Real.cos_sub, Real.sin_sub, Real.cos_sub, Real.sin_sub, cos_wrap, sin_wrap]
      exact ⟨rfl, rfl⟩
    rw [(t _).1, (t _).2]
  have ha := horizon_angles lat (gmst + lon) (polarOf p) (azimuthOf p)
  have hl : len (horizon lat (gmst + lon) (toCart (polarOf p) (azimuthOf p))) = 1 := by
    rw [len_horizon, len_cart]
  unfold meanToHorizontal quot
  simp only [if_neg hr.ne', Option.bind_some, Option.map_some, if_pos hr, same _ hr]
  have hpol : Real.arcsin (p 2 / len p) = polarOf p := rfl
  rw [hpol, hd]
  unfold horizontalAngles
  simp only [cos_wrap, sin_wrap]
  rw [ha] at hl
  unfold len at hl
  rw [Real.sqrt_eq_one] at hl
  simp only [Matrix.cons_val_zero, Matrix.cons_val_one, Matrix.cons_val] at hl
  have key : horizon lat (gmst + lon) p = len p • horizon lat (gmst + lon)
      (toCart (polarOf p) (azimuthOf p)) := by
    rw [hc, horizon_smul, smul_smul, mul_one_div_cancel hr.ne', one_smul]
  rw [ha] at key
  obtain ⟨N, hN⟩ : ∃ N, Real.sin (polarOf p) * Real.cos lat
      - Real.cos (polarOf p) * Real.cos (gmst + lon - azimuthOf p) * Real.sin lat = N := ⟨_, rfl⟩
  obtain ⟨E, hE⟩ : ∃ E, -Real.cos (polarOf p) * Real.sin (gmst + lon - azimuthOf p) = E := ⟨_, rfl⟩
  obtain ⟨U, hU⟩ : ∃ U, Real.sin (polarOf p) * Real.sin lat
      + Real.cos (polarOf p) * Real.cos lat * Real.cos (gmst + lon - azimuthOf p) = U := ⟨_, rfl⟩
  rw [hN, hE, hU] at hl key ⊢
  have hU1 : |U| ≤ 1 :=
    abs_le_of_sq_le_sq (by nlinarith [sq_nonneg N, sq_nonneg E]) zero_le_one
  rw [abs_le] at hU1
  have c1 : Real.cos (Real.arcsin U) = Real.sqrt (N * N + E * E) := by
    rw [Real.cos_arcsin]
    congr 1
    linarith
  obtain ⟨q1, q2⟩ := atan2_polar N E
  have k0 : north lat (gmst + lon) ⬝ᵥ p = len p * N := congrFun key 0
  have k1 : east (gmst + lon) ⬝ᵥ p = len p * E := congrFun key 1
  have k2 : up lat (gmst + lon) ⬝ᵥ p = len p * U := congrFun key 2
  rw [k0, k1, k2, Real.sin_arcsin hU1.1 hU1.2, c1, mul_assoc, q1, mul_assoc, q2]
  congr 1
  funext i
  fin_cases i <;> simp

/-- **C158 (finding).** The same type of position, horizontal and topocentric, has its second axis
towards the east in one conversion and towards the west in the other. -/
theorem second_axis_disagrees (lst lat lon : ℝ) {p q : V3} (hp : p ≠ 0)
    (hq : meanToHorizontal lst lat lon p = some q) :
    q 0 = toHorizontalPosition lst lat lon p 0 ∧ q 1 = -toHorizontalPosition lst lat lon p 1
      ∧ q 2 = toHorizontalPosition lst lat lon p 2 := by
  rw [mean_to_horizontal lst lat lon hp] at hq
  rw [(horizontal_position lst lat lon hp).1]
  injection hq with hq
  subst hq
  exact ⟨rfl, rfl, rfl⟩

theorem mean_azimuth (gmst lat lon : ℝ) {s t : Sph} (hd : 0 < s.distance)
    (ht : meanToHorizontalSph gmst lat lon s = some t) :
    Real.cos t.polar * Real.cos t.azimuth = north lat (gmst + lon) ⬝ᵥ toCart s.polar s.azimuth
      ∧ Real.cos t.polar * Real.sin t.azimuth
        = -(east (gmst + lon) ⬝ᵥ toCart s.polar s.azimuth)
      ∧ Real.sin t.polar = up lat (gmst + lon) ⬝ᵥ toCart s.polar s.azimuth
      ∧ t.distance = s.distance := by
  have hc : toCart s.polar s.azimuth ≠ 0 := unit_ne (len_cart _ _)
  have hp : s.distance • toCart s.polar s.azimuth ≠ 0 := smul_ne_zero hd.ne' hc
  unfold meanToHorizontalSph at ht
  rw [mean_to_horizontal gmst lat lon hp, Option.map_some] at ht
  injection ht with ht
  subst ht
  simp only
  obtain ⟨w, hw⟩ : ∃ w : V3, w = ![north lat (gmst + lon) ⬝ᵥ s.distance • toCart s.polar s.azimuth,
      -(east (gmst + lon) ⬝ᵥ s.distance • toCart s.polar s.azimuth),
      up lat (gmst + lon) ⬝ᵥ s.distance • toCart s.polar s.azimuth] := ⟨_, rfl⟩
  rw [← hw]
  have hl : len w = s.distance := by
    have e : len w = len (horizon lat (gmst + lon) (s.distance • toCart s.polar s.azimuth)) := by
      unfold len
      congr 1
      rw [hw]
      simp [horizon]
    rw [e, len_horizon]
    have h1 := len_cart s.polar s.azimuth
    unfold len at h1 ⊢
    rw [Real.sqrt_eq_one] at h1
    have : (s.distance • toCart s.polar s.azimuth) 0 ^ 2
        + (s.distance • toCart s.polar s.azimuth) 1 ^ 2
        + (s.distance • toCart s.polar s.azimuth) 2 ^ 2 = s.distance ^ 2 := by
      simp only [Pi.smul_apply, smul_eq_mul, mul_pow]
      rw [← mul_add, ← mul_add, h1, mul_one]
    rw [this, Real.sqrt_sq hd.le]
  have hw0 : w ≠ 0 := by
    rintro h
    rw [h] at hl
    unfold len at hl
    simp at hl
    exact hd.ne hl
  obtain ⟨b1, b2, b3⟩ := angles_vector hw0
  rw [hl] at b1 b2 b3
  refine ⟨?_, ?_, ?_, hl⟩
  · rw [b2, hw]
    simp only [Matrix.cons_val_zero, dotProduct_smul, smul_eq_mul]
    field_simp
  · rw [b3, hw]
    simp only [Matrix.cons_val_one, Matrix.cons_val_zero, dotProduct_smul, smul_eq_mul]
    field_simp
  · rw [b1, hw]
    simp only [Matrix.cons_val, dotProduct_smul, smul_eq_mul]
    field_simp

/-- **C158 (finding).** So the older conversion of spherical positions reports azimuths counted from
north through west, although the frame's azimuths are declared north through east: a star due east
on the horizon is reported at azimuth 270°. -/
theorem mean_azimuth_mirrored (gmst lat lon : ℝ) {s t : Sph} (hd : 0 < s.distance)
    (he : toCart s.polar s.azimuth = east (gmst + lon))
    (ht : meanToHorizontalSph gmst lat lon s = some t) :
    t.azimuth = 3 * Real.pi / 2 := by
  obtain ⟨h1, h2, h3, _⟩ := mean_azimuth gmst lat lon hd ht
  have hz := horizon_celestial lat (gmst + lon) ![0, 1, 0]
  have hcel : celestial lat (gmst + lon) ![0, 1, 0] = east (gmst + lon) := by
    unfold celestial
    simp
  rw [hcel] at hz
  rw [he] at h1 h2 h3
  have n0 : north lat (gmst + lon) ⬝ᵥ east (gmst + lon) = 0 := congrFun hz 0
  have n1 : east (gmst + lon) ⬝ᵥ east (gmst + lon) = 1 := congrFun hz 1
  have n2 : up lat (gmst + lon) ⬝ᵥ east (gmst + lon) = 0 := congrFun hz 2
  rw [n0] at h1
  rw [n1] at h2
  rw [n2] at h3
  unfold meanToHorizontalSph at ht
  rw [Option.map_eq_some_iff] at ht
  obtain ⟨w, _, rfl⟩ := ht
  simp only at h1 h2 h3 ⊢
  have hc0 : 0 ≤ Real.cos (polarOf w) := Real.cos_arcsin_nonneg _
  have hc1 : Real.cos (polarOf w) = 1 := by
    have := Real.sin_sq_add_cos_sq (polarOf w)
    rw [h3] at this
    nlinarith
  rw [hc1, one_mul] at h1 h2
  have hr := wrap_range (atan2 (w 1) (w 0))
  change 0 ≤ azimuthOf w ∧ azimuthOf w < 2 * Real.pi at hr
  have hang : ((azimuthOf w : ℝ) : Real.Angle) = ((3 * Real.pi / 2 : ℝ) : Real.Angle) := by
    apply Real.Angle.cos_sin_inj
    · rw [h1]
      have : 3 * Real.pi / 2 = Real.pi + Real.pi / 2 := by ring
      rw [this, Real.cos_add]
      simp
    · rw [h2]
      have : 3 * Real.pi / 2 = Real.pi + Real.pi / 2 := by ring
      rw [this, Real.sin_add]
      simp
  rw [Real.Angle.angle_eq_iff_two_pi_dvd_sub] at hang
  obtain ⟨k, hk⟩ := hang
  have hp := Real.pi_pos
  have k0 : k = 0 := by
    have h1 : (k : ℝ) < 1 := by nlinarith
    have h2 : (-1 : ℝ) < k := by nlinarith
    have h3 : k < 1 := by exact_mod_cast h1
    have h4 : -1 < k := by exact_mod_cast h2
    omega
  rw [k0] at hk
  simp at hk
  linarith

/-- The right ascension from the hour angle. -/
theorem restore {g r ρ : ℝ} {p : V3} (hr0 : 0 < r) (hρ0 : 0 < ρ)
    (hρ2 : ρ ^ 2 = p 0 * p 0 + p 1 * p 1) :
    (![r * (ρ / r) * Real.cos (g - atan2 ((Real.sin g * p 0 - Real.cos g * p 1) / ρ)
          ((Real.cos g * p 0 + Real.sin g * p 1) / ρ)),
      r * (ρ / r) * Real.sin (g - atan2 ((Real.sin g * p 0 - Real.cos g * p 1) / ρ)
          ((Real.cos g * p 0 + Real.sin g * p 1) / ρ)),
      r * (p 2 / r)] : V3) = p := by
  obtain ⟨C, hCd⟩ : ∃ C, C = (Real.cos g * p 0 + Real.sin g * p 1) / ρ := ⟨_, rfl⟩
  obtain ⟨S, hSd⟩ : ∃ S, S = (Real.sin g * p 0 - Real.cos g * p 1) / ρ := ⟨_, rfl⟩
  rw [← hCd, ← hSd]
  have hg := Real.sin_sq_add_cos_sq g
  have hCS : C * C + S * S = 1 := by
    have h1 : C * C + S * S
        = (Real.sin g ^ 2 + Real.cos g ^ 2) * (p 0 * p 0 + p 1 * p 1) / ρ ^ 2 := by
      rw [hCd, hSd]
      field_simp
      ring
    rw [h1, hg, hρ2, one_mul, div_self]
    rw [← hρ2]
    positivity
  obtain ⟨t1, t2⟩ := atan2_polar C S
  rw [hCS, Real.sqrt_one, one_mul] at t1 t2
  rw [Real.cos_sub, Real.sin_sub, t1, t2, hCd, hSd]
  have u0 : Real.cos g * ((Real.cos g * p 0 + Real.sin g * p 1) / ρ)
      + Real.sin g * ((Real.sin g * p 0 - Real.cos g * p 1) / ρ)
      = (Real.sin g ^ 2 + Real.cos g ^ 2) * p 0 / ρ := by ring
  have u1 : Real.sin g * ((Real.cos g * p 0 + Real.sin g * p 1) / ρ)
      - Real.cos g * ((Real.sin g * p 0 - Real.cos g * p 1) / ρ)
      = (Real.sin g ^ 2 + Real.cos g ^ 2) * p 1 / ρ := by ring
  rw [u0, u1, hg, one_mul, one_mul]
  funext i
  fin_cases i
  · show r * (ρ / r) * (p 0 / ρ) = p 0
    field_simp
  · show r * (ρ / r) * (p 1 / ρ) = p 1
    field_simp
  · show r * (p 2 / r) = p 2
    field_simp

set_option maxHeartbeats 800000 in
/-- **C158.** Away from the poles of the Earth and of the sky the older conversions are inverse to
each other. -/
theorem mean_roundtrip (gmst lat lon : ℝ) (hlat : 0 < Real.cos lat) {p q : V3} (hp : p ≠ 0)
    (hpole : p 0 ≠ 0 ∨ p 1 ≠ 0) (hq : meanToHorizontal gmst lat lon p = some q) :
    meanToEquatorial gmst lat lon q = some p := by
  rw [mean_to_horizontal gmst lat lon hp] at hq
  injection hq with hq
  obtain ⟨r, hr⟩ : ∃ r, r = len p := ⟨_, rfl⟩
  have hr0 : 0 < r := by rw [hr]; exact len_pos hp
  have hlq : len q = r := by
    rw [hr, ← len_horizon lat (gmst + lon) p]
    unfold len
    congr 1
    rw [← hq]
    simp [horizon]
  have hqn : q ≠ 0 := by
    rintro h
    rw [h] at hlq
    unfold len at hlq
    simp at hlq
    exact hr0.ne hlq
  -- the mirrored vector has the true azimuth
  obtain ⟨h, hh⟩ : ∃ h : V3, h = horizon lat (gmst + lon) p := ⟨_, rfl⟩
  have q0 : q 0 = h 0 := by rw [← hq, hh]; rfl
  have q1 : q 1 = -h 1 := by rw [← hq, hh]; rfl
  have q2 : q 2 = h 2 := by rw [← hq, hh]; rfl
  have hlh : len h = r := by rw [hh, len_horizon, hr]
  have hhn : h ≠ 0 := by
    rintro h'
    rw [h'] at hlh
    unfold len at hlh
    simp at hlh
    exact hr0.ne hlh
  obtain ⟨a1, a2, a3⟩ := angles_vector hhn
  rw [hlh] at a1 a2 a3
  have back : celestial lat (gmst + lon) h = p := by rw [hh, celestial_horizon]
  have same : ∀ k : ℝ, 0 < k → atan2 (h 1 / k) (h 0 / k) = atan2 (h 1) (h 0) := by
    intro k hk
    unfold atan2
    have : (⟨h 0, h 1⟩ : ℂ) = (k : ℂ) * ⟨h 0 / k, h 1 / k⟩ := by
      apply Complex.ext <;> simp <;> field_simp
    rw [this, Complex.arg_real_mul _ hk]
  have hpol : Real.arcsin (h 2 / r) = polarOf h := by unfold polarOf; rw [hlh]
  unfold meanToEquatorial quot
  simp only [hlq, if_neg hr0.ne', Option.bind_some, if_pos hr0, q0, q1, q2, neg_neg, same _ hr0,
    hpol]
  rw [azimuthOf, cos_wrap] at a2
  rw [azimuthOf, sin_wrap] at a3
  unfold equatorialAngles quot
  simp only
  have pb2 : p 2 = h 0 * Real.cos lat + h 2 * Real.sin lat := by
    rw [← back]
    simp [celestial, north, east, up]
  have sd : Real.sin (polarOf h) * Real.sin lat
      + Real.cos (polarOf h) * Real.cos lat * Real.cos (atan2 (h 1) (h 0)) = p 2 / r := by
    have : Real.cos (polarOf h) * Real.cos lat * Real.cos (atan2 (h 1) (h 0))
        = Real.cos lat * (Real.cos (polarOf h) * Real.cos (atan2 (h 1) (h 0))) := by ring
    rw [this, a1, a2, pb2]
    ring
  rw [sd]
  have hs := len_sq p
  rw [← hr] at hs
  have hz : |p 2 / r| ≤ 1 := by
    rw [abs_div, abs_of_pos hr0, div_le_one hr0]
    apply abs_le_of_sq_le_sq _ hr0.le
    nlinarith [sq_nonneg (p 0), sq_nonneg (p 1)]
  rw [abs_le] at hz
  have sdec : Real.sin (Real.arcsin (p 2 / r)) = p 2 / r := Real.sin_arcsin hz.1 hz.2
  have cdec : Real.cos (Real.arcsin (p 2 / r)) = Real.sqrt (p 0 * p 0 + p 1 * p 1) / r := by
    rw [Real.cos_arcsin]
    have : 1 - (p 2 / r) ^ 2 = (p 0 * p 0 + p 1 * p 1) / r ^ 2 := by
      field_simp
      linarith
    rw [this, Real.sqrt_div (add_nonneg (mul_self_nonneg _) (mul_self_nonneg _)),
      Real.sqrt_sq hr0.le]
  obtain ⟨ρ, hρ⟩ : ∃ ρ, ρ = Real.sqrt (p 0 * p 0 + p 1 * p 1) := ⟨_, rfl⟩
  have hρ0 : 0 < ρ := by
    rw [hρ]
    apply Real.sqrt_pos.mpr
    rcases hpole with h' | h'
    · have := mul_self_pos.mpr h'
      nlinarith [mul_self_nonneg (p 1)]
    · have := mul_self_pos.mpr h'
      nlinarith [mul_self_nonneg (p 0)]
  rw [← hρ] at cdec
  have hcd : 0 < Real.cos (Real.arcsin (p 2 / r)) := by rw [cdec]; positivity
  rw [if_neg (mul_pos hlat hcd).ne', if_neg hcd.ne']
  simp only [Option.bind_some, Option.map_some]
  -- the hour angle
  have ph0 : h 2 = Real.cos lat * (Real.cos (gmst + lon) * p 0 + Real.sin (gmst + lon) * p 1)
      + Real.sin lat * p 2 := by
    rw [hh]
    show up lat (gmst + lon) ⬝ᵥ p = _
    simp [up, dotProduct, Fin.sum_univ_three]
    ring
  have ph1 : h 1 = -Real.sin (gmst + lon) * p 0 + Real.cos (gmst + lon) * p 1 := by
    rw [hh]
    show east (gmst + lon) ⬝ᵥ p = _
    simp [east, dotProduct, Fin.sum_univ_three]
  have hsl := Real.sin_sq_add_cos_sq lat
  have hC : (Real.sin (polarOf h) - Real.sin lat * Real.sin (Real.arcsin (p 2 / r)))
      / (Real.cos lat * Real.cos (Real.arcsin (p 2 / r)))
      = (Real.cos (gmst + lon) * p 0 + Real.sin (gmst + lon) * p 1) / ρ := by
    rw [sdec, cdec, a1, ph0]
    field_simp
    ring
  have hS : -Real.cos (polarOf h) * Real.sin (atan2 (h 1) (h 0))
      / Real.cos (Real.arcsin (p 2 / r))
      = (Real.sin (gmst + lon) * p 0 - Real.cos (gmst + lon) * p 1) / ρ := by
    rw [neg_mul, a3, cdec, ph1]
    field_simp
    ring
  rw [hC, hS]
  have hρ2 : ρ ^ 2 = p 0 * p 0 + p 1 * p 1 := by
    rw [hρ]
    exact Real.sq_sqrt (add_nonneg (mul_self_nonneg _) (mul_self_nonneg _))
  have fin := restore (g := gmst + lon) (r := r) (ρ := ρ) (p := p) hr0 hρ0 hρ2
  rw [cos_wrap, sin_wrap, sdec, cdec]
  exact congrArg some fin

/-- **C158 (finding).** At a pole of the Earth the older conversion back has the quotient `0/0` for
every direction, although the conversion there is defined; the newer one has no such exception. -/
theorem mean_pole_undefined (gmst lat lon : ℝ) (hlat : Real.cos lat = 0) (q : V3) :
    meanToEquatorial gmst lat lon q = none := by
  have e : ∀ alt az : ℝ, equatorialAngles gmst lat lon alt az = none := by
    intro alt az
    unfold equatorialAngles
    simp [hlat, quot]
  unfold meanToEquatorial
  simp only [e]
  cases quot (-q 1) (len q) <;> cases quot (q 0) (len q) <;> rfl

/-! ## Observed directions -/

open Verif.Apparent (Vec3 aberrate applyWithVelocity removeWithVelocity) in
theorem aberrate_map (m : Vec3 ≃ₗᵢ[ℝ] Vec3) (u β : Vec3) :
    m (aberrate u β) = aberrate (m u) (m β) := by
  unfold aberrate
  simp only [m.norm_map, m.inner_map_map]
  split_ifs
  · rfl
  · simp only [map_smul, map_add]

open Verif.Apparent (Vec3 aberrate applyWithVelocity removeWithVelocity) in
/-- **C159.** The apparent direction does not depend on the frame in which the astrometric direction
is given: it is where an observer with that velocity, written in the same frame, sees the light. -/
theorem apparent_seen {c : ℝ} (hc : 0 < c) (m : Vec3 ≃ₗᵢ[ℝ] Vec3) {u v : Vec3} (hu : ‖u‖ = 1)
    (h0 : v ≠ 0) (hv : ‖v‖ < c) :
    Verif.Apparent.Spec.SeenBy ((1 / c) • m.symm v) u (toApparent c m v u)
      ∧ ‖toApparent c m v u‖ = 1 := by
  have hb : ‖(1 / c) • m.symm v‖ < 1 := by
    rw [norm_smul, m.symm.norm_map, Real.norm_of_nonneg (by positivity), one_div,
      inv_mul_lt_iff₀ hc]
    linarith
  have e : toApparent c m v u = aberrate u ((1 / c) • m.symm v) := by
    unfold toApparent applyWithVelocity
    rw [aberrate_map, m.symm_apply_apply, map_smul]
  rw [e]
  refine ⟨aberration_lorentz hu ?_ hb, aberration_unit hu hb⟩
  rw [smul_ne_zero_iff]
  refine ⟨by positivity, ?_⟩
  rwa [ne_eq, LinearIsometryEquiv.map_eq_zero_iff]

open Verif.Apparent (Vec3 aberrate applyWithVelocity removeWithVelocity) in
/-- **C159.** Astrometric and apparent directions for the same observer convert into each other
without loss, in every frame. -/
theorem apparent_roundtrip {c : ℝ} (hc : 0 < c) (m : Vec3 ≃ₗᵢ[ℝ] Vec3) {u v : Vec3} (hu : ‖u‖ = 1)
    (hv : ‖v‖ < c) :
    toAstrometric c m v (toApparent c m v u) = u ∧ toApparent c m v (toAstrometric c m v u) = u := by
  have hmu : ‖m u‖ = 1 := by rw [m.norm_map, hu]
  obtain ⟨r1, r2, _, _⟩ := velocity_roundtrip hc hmu hv
  unfold toApparent toAstrometric
  rw [m.apply_symm_apply, m.apply_symm_apply, r1, r2, m.symm_apply_apply]
  exact ⟨rfl, rfl⟩

/-! ## Instances -/

/-- A star due east. -/
example (gmst lon : ℝ) : toCart 0 (gmst + lon + Real.pi / 2) = east (gmst + lon) := by
  funext i
  fin_cases i <;> simp [toCart, east, Real.cos_add_pi_div_two, Real.sin_add_pi_div_two]

/-- The newer conversion puts it at azimuth 90°: all of it along the second axis. -/
example (gast lat lon : ℝ) : toHorizontal gast lat lon (east (gast + lon)) = ![0, 1, 0] := by
  have hz := horizon_celestial lat (gast + lon) ![0, 1, 0]
  have hcel : celestial lat (gast + lon) ![0, 1, 0] = east (gast + lon) := by
    unfold celestial
    simp
  rw [hcel] at hz
  have hl : len (east (gast + lon)) = 1 := by
    rw [← hcel, len_celestial]
    unfold len
    simp
  rw [to_horizontal_axes gast lat lon hl]
  exact hz

example : 0 < Real.cos (Real.pi / 4) ∧ Real.cos (Real.pi / 2) = 0 := by
  constructor
  · rw [Real.cos_pi_div_four]; positivity
  · exact Real.cos_pi_div_two

end Verif.Horizon
