import Verif.Lagrange.Solver

/-
Claim C146: the rotating frame, the first guesses and the residual.
-/
namespace Verif.Lagrange.Props
open Verif.Lagrange Classical

theorem len_pos {a : V} (h : a ≠ 0) : 0 < len a := lt_of_le_of_ne (len_nonneg a) (fun e => h (eq_zero_of_len e.symm))

theorem ext3 {a b : V} (h0 : a 0 = b 0) (h1 : a 1 = b 1) (h2 : a 2 = b 2) : a = b := by
  funext i
  fin_cases i
  · exact h0
  · exact h1
  · exact h2

theorem cross_dot_left (a b : V) : dot a (cross a b) = 0 := by
  simp only [dot, cross, Matrix.cons_val_zero, Matrix.cons_val_one, Matrix.cons_val]; ring

theorem cross_dot_right (a b : V) : dot b (cross a b) = 0 := by
  simp only [dot, cross, Matrix.cons_val_zero, Matrix.cons_val_one, Matrix.cons_val]; ring

theorem lagrange_identity (a b : V) : dot (cross a b) (cross a b) = dot a a * dot b b - dot a b ^ 2 := by
  simp only [dot, cross, Matrix.cons_val_zero, Matrix.cons_val_one, Matrix.cons_val]; ring

theorem dot_smul (c : ℝ) (a b : V) : dot (c • a) b = c * dot a b := by
  simp only [dot, Pi.smul_apply, smul_eq_mul]; ring

theorem dot_smul_right (c : ℝ) (a b : V) : dot a (c • b) = c * dot a b := by
  simp only [dot, Pi.smul_apply, smul_eq_mul]; ring

theorem dot_comm (a b : V) : dot a b = dot b a := by unfold dot; ring

theorem unit_of {a : V} (h : 0 < len a) : dot ((1 / len a) • a) ((1 / len a) • a) = 1 := by
  rw [dot_smul, dot_smul_right, ← len_sq]
  field_simp

/-- Three axes at right angles, of unit length and right-handed. -/
structure Axes (x y z : V) : Prop where
  xx : dot x x = 1
  yy : dot y y = 1
  zz : dot z z = 1
  xy : dot x y = 0
  xz : dot x z = 0
  yz : dot y z = 0
  hand : y = cross z x

/-- What the frame is, for a Sun and an Earth that are apart and a motion that is not along the line between them. -/
structure IsFrame (k : Mu) (sun earth moon velocity : V) (f : Frame) : Prop where
  bodies : f.sun = sun ∧ f.earth = earth ∧ f.moon = moon
  axes : Axes f.x f.y f.z
  distance : f.distance = len (earth - sun) ∧ 0 < f.distance
  /-- the first axis goes from the Sun to the Earth -/
  towards : earth - sun = f.distance • f.x
  /-- the angular velocity of the line from the Sun to the Earth -/
  spin : (f.distance ^ 2 * f.omega) • f.z = cross (earth - sun) velocity
  turns : 0 < f.omega
  /-- the origin is the centre of mass of the two -/
  centre : k.sun • (f.origin - sun) + k.earth • (f.origin - earth) = 0

theorem frame_made {k : Mu} (hs : 0 < k.sun) (he : 0 < k.earth) {sun earth moon velocity : V} (hv : cross (earth - sun) velocity ≠ 0) :
    ∃ f, frameOf k sun earth moon velocity = .ok f ∧ IsFrame k sun earth moon velocity f := by
  have hrel : earth - sun ≠ 0 := by
    intro h0
    apply hv
    rw [h0]
    apply ext3 <;> simp [cross]
  set rel := earth - sun with hrel'
  have hd := len_pos hrel
  have hh := len_pos hv
  have hxx := unit_of hd
  have hzz := unit_of hh
  have hzx : dot ((1 / len (cross rel velocity)) • cross rel velocity) ((1 / len rel) • rel) = 0 := by
    rw [dot_smul, dot_smul_right, dot_comm, cross_dot_left]; ring
  set x : V := (1 / len rel) • rel with hx
  set z : V := (1 / len (cross rel velocity)) • cross rel velocity with hz
  have hyy : dot (cross z x) (cross z x) = 1 := by rw [lagrange_identity, hxx, hzz, hzx]; ring
  have hy1 : len (cross z x) = 1 := by unfold len; rw [hyy, Real.sqrt_one]
  have hnorm : normalize (cross z x) = some (cross z x) := by
    unfold normalize
    rw [hy1, if_pos one_pos]
    simp
  have hk : k.sun + k.earth ≠ 0 := ne_of_gt (by linarith)
  refine ⟨⟨sun, earth, moon, (1 / (k.sun + k.earth)) • (k.sun • sun + k.earth • earth), x, cross z x, z,
    len (cross rel velocity) / (len rel * len rel), len rel, externalAccel k sun earth moon⟩, ?_, ?_⟩
  · unfold frameOf
    dsimp only
    rw [← hrel', if_neg (not_le.mpr hd), if_neg (not_le.mpr hh), if_pos hh, ← hx, ← hz, hnorm]
  · refine ⟨⟨rfl, rfl, rfl⟩, ⟨hxx, hyy, hzz, cross_dot_right z x, by rw [dot_comm]; exact hzx, by rw [dot_comm]; exact cross_dot_left z x, rfl⟩, ⟨rfl, hd⟩, ?_, ?_, by positivity, ?_⟩
    · show rel = len rel • x
      rw [hx, smul_smul, mul_one_div_cancel (ne_of_gt hd), one_smul]
    · show (len rel ^ 2 * (len (cross rel velocity) / (len rel * len rel))) • z = cross rel velocity
      rw [hz, smul_smul]
      have : len rel ^ 2 * (len (cross rel velocity) / (len rel * len rel)) * (1 / len (cross rel velocity)) = 1 := by field_simp
      rw [this, one_smul]
    · funext i
      simp only [Pi.add_apply, Pi.smul_apply, Pi.sub_apply, smul_eq_mul, Pi.zero_apply]
      field_simp
      ring

/-- C146. When the ephemeris answers at the date and a hundredth of a day before and after, the frame is that of the two bodies; the velocity is the
difference of the positions over the 1728 seconds between. -/
theorem frame_new {k : Mu} (hs : 0 < k.sun) (he : 0 < k.earth) {s : Sampler} {jd : ℝ} {sun earth moon s1 e1 s2 e2 : V}
    (h1 : s.sun jd = some sun) (h2 : s.earth jd = some earth) (h3 : s.moonGeo jd = some moon)
    (h4 : s.sun (jd - 1 / 100) = some s1) (h5 : s.earth (jd - 1 / 100) = some e1) (h6 : s.sun (jd + 1 / 100) = some s2) (h7 : s.earth (jd + 1 / 100) = some e2)
    {v : V} (hv : (1728 : ℝ) • v = (e2 - s2) - (e1 - s1)) (hc : cross (earth - sun) v ≠ 0) :
    ∃ f, frameNew k s jd = .ok f ∧ IsFrame k sun earth (earth + moon) v f := by
  have hvel : relativeVelocity s jd = some v := by
    unfold relativeVelocity
    rw [h4, h5, h6, h7]
    show some _ = some v
    rw [← hv, smul_smul]
    norm_num
  obtain ⟨f, e, hf⟩ := frame_made hs he (moon := earth + moon) hc
  refine ⟨f, ?_, hf⟩
  have hd : ¬ len (earth - sun) ≤ 0 := by
    have := hf.distance
    rw [← this.1]
    exact not_le.mpr this.2
  unfold frameNew
  rw [h1, h2, h3]
  dsimp only
  rw [if_neg hd, hvel]
  exact e

/-- C146. Bodies at the same place have no frame; a date the ephemeris does not answer is an error of the ephemeris. -/
theorem frame_errors {k : Mu} {s : Sampler} {jd : ℝ} :
    (∀ p m, s.sun jd = some p → s.earth jd = some p → s.moonGeo jd = some m → frameNew k s jd = .error .degenerateFrame) ∧
    (s.sun jd = none ∨ s.earth jd = none ∨ s.moonGeo jd = none → frameNew k s jd = .error .ephemeris) := by
  constructor
  · intro p m h1 h2 h3
    unfold frameNew
    rw [h1, h2, h3]
    dsimp only
    rw [if_pos (by rw [sub_self, len_zero])]
  · intro h
    unfold frameNew
    cases h1 : s.sun jd <;> cases h2 : s.earth jd <;> cases h3 : s.moonGeo jd <;> first | rfl | simp [h1, h2, h3] at h

/-! ### The first guesses -/

/-- The origin seen from the Sun. -/
theorem origin_eq {k : Mu} (hs : 0 < k.sun) (he : 0 < k.earth) {sun earth moon v : V} {f : Frame} (hf : IsFrame k sun earth moon v f) :
    f.origin = f.sun + ((k.earth / (k.sun + k.earth)) * f.distance) • f.x := by
  have hc := hf.centre
  have ht := hf.towards
  obtain ⟨b1, b2, _⟩ := hf.bodies
  have hk : k.sun + k.earth ≠ 0 := ne_of_gt (by linarith)
  funext i
  have c := congrFun hc i
  have t := congrFun ht i
  simp only [Pi.add_apply, Pi.smul_apply, Pi.sub_apply, smul_eq_mul, Pi.zero_apply] at c t ⊢
  rw [b1]
  field_simp
  have : earth i = sun i + f.distance * f.x i := by linarith
  rw [this] at c
  linarith

/-- Where a point is, from the Sun, in units of the distance: along the line to the Earth and in the direction of the motion. -/
noncomputable def placed (f : Frame) (a b : ℝ) : V := f.sun + ((a * f.distance) • f.x + (b * f.distance) • f.y)

/-- C146. The guesses: L1 and L2 on the line through the Earth, a Hill radius inside and outside; L3 beyond the Sun; L4 and L5 sixty degrees before and behind
the Earth. -/
theorem seeds_placed {k : Mu} (hs : 0 < k.sun) (he : 0 < k.earth) {sun earth moon v : V} {f : Frame} (hf : IsFrame k sun earth moon v f) :
    ∃ γ : ℝ, 0 < γ ∧ γ ^ 3 = k.earth / (k.sun + k.earth) / 3 ∧ seed k f .L1 = placed f (1 - γ) 0 ∧ seed k f .L2 = placed f (1 + γ) 0 ∧
      seed k f .L3 = placed f (-(1 + 5 / 12 * (k.earth / (k.sun + k.earth)))) 0 ∧
      seed k f .L4 = placed f (1 / 2) (Real.sqrt 3 / 2) ∧ seed k f .L5 = placed f (1 / 2) (-(Real.sqrt 3 / 2)) := by
  have hmu : 0 < k.earth / (k.sun + k.earth) := by positivity
  have ho := origin_eq hs he hf
  have hd : len (f.earth - f.sun) = f.distance := by rw [hf.bodies.1, hf.bodies.2.1, hf.distance.1]
  refine ⟨(k.earth / (k.sun + k.earth) / 3) ^ (1 / 3 : ℝ), by positivity, ?_, ?_, ?_, ?_, ?_, ?_⟩
  · rw [← Real.rpow_natCast, ← Real.rpow_mul (by positivity)]
    norm_num
  all_goals
    unfold seed placed
    dsimp only
    rw [ho, hd]
    funext i
    simp only [Pi.add_apply, Pi.smul_apply, smul_eq_mul]
    ring

theorem dot_placed {x y : V} (hxx : dot x x = 1) (hyy : dot y y = 1) (hxy : dot x y = 0) (a b : ℝ) : dot (a • x + b • y) (a • x + b • y) = a ^ 2 + b ^ 2 := by
  have : dot (a • x + b • y) (a • x + b • y) = a ^ 2 * dot x x + 2 * a * b * dot x y + b ^ 2 * dot y y := by
    simp only [dot, Pi.add_apply, Pi.smul_apply, smul_eq_mul]; ring
  rw [this, hxx, hyy, hxy]; ring

theorem triangle {k : Mu} {sun earth moon v : V} {f : Frame} (hf : IsFrame k sun earth moon v f) {b : ℝ} (hb : b ^ 2 = 3 / 4) :
    len (placed f (1 / 2) b - f.sun) = f.distance ∧ len (f.sun - placed f (1 / 2) b) = f.distance ∧ len (f.earth - placed f (1 / 2) b) = f.distance := by
  have hd := hf.distance.2
  have h1 : dot (placed f (1 / 2) b - f.sun) (placed f (1 / 2) b - f.sun) = f.distance ^ 2 := by
    unfold placed
    rw [add_sub_cancel_left, dot_placed hf.axes.xx hf.axes.yy hf.axes.xy]
    rw [mul_pow, mul_pow, hb]; ring
  have h2 : f.earth - placed f (1 / 2) b = (f.distance - 1 / 2 * f.distance) • f.x + (-(b * f.distance)) • f.y := by
    have ht := hf.towards
    rw [← hf.bodies.1, ← hf.bodies.2.1] at ht
    unfold placed
    funext i
    have t := congrFun ht i
    simp only [Pi.add_apply, Pi.smul_apply, Pi.sub_apply, smul_eq_mul] at t ⊢
    linarith
  have h3 : f.sun - placed f (1 / 2) b = (-1 : ℝ) • (placed f (1 / 2) b - f.sun) := by
    rw [neg_one_smul]; abel
  have e1 : len (placed f (1 / 2) b - f.sun) = f.distance := by unfold len; rw [h1, Real.sqrt_sq (le_of_lt hd)]
  refine ⟨e1, ?_, ?_⟩
  · rw [h3, len_smul, e1]; norm_num
  · unfold len
    rw [h2, dot_placed hf.axes.xx hf.axes.yy hf.axes.xy]
    rw [show (f.distance - 1 / 2 * f.distance) ^ 2 + (-(b * f.distance)) ^ 2 = f.distance ^ 2 by rw [neg_sq, mul_pow, hb]; ring, Real.sqrt_sq (le_of_lt hd)]

theorem root3 : (Real.sqrt 3 / 2) ^ 2 = 3 / 4 ∧ (-(Real.sqrt 3 / 2)) ^ 2 = 3 / 4 := by
  have : Real.sqrt 3 ^ 2 = 3 := Real.sq_sqrt (by norm_num)
  constructor
  · rw [div_pow, this]; norm_num
  · rw [neg_sq, div_pow, this]; norm_num

/-- C146. The guesses for L4 and L5 form equilateral triangles with the Sun and the Earth, the one for L4 ahead of the Earth, that for L5 behind it. -/
theorem triangles {k : Mu} (hs : 0 < k.sun) (he : 0 < k.earth) {sun earth moon v : V} {f : Frame} (hf : IsFrame k sun earth moon v f) :
    (len (seed k f .L4 - sun) = f.distance ∧ len (earth - seed k f .L4) = f.distance ∧ 0 < dot (seed k f .L4 - sun) f.y) ∧
    (len (seed k f .L5 - sun) = f.distance ∧ len (earth - seed k f .L5) = f.distance ∧ dot (seed k f .L5 - sun) f.y < 0) := by
  obtain ⟨γ, _, _, _, _, _, e4, e5⟩ := seeds_placed hs he hf
  have hy : ∀ b, dot (placed f (1 / 2) b - f.sun) f.y = b * f.distance := by
    intro b
    unfold placed
    rw [add_sub_cancel_left]
    have : dot ((1 / 2 * f.distance) • f.x + (b * f.distance) • f.y) f.y = (1 / 2 * f.distance) * dot f.x f.y + (b * f.distance) * dot f.y f.y := by
      simp only [dot, Pi.add_apply, Pi.smul_apply, smul_eq_mul]; ring
    rw [this, hf.axes.xy, hf.axes.yy]; ring
  have h3 : 0 < Real.sqrt 3 := Real.sqrt_pos.mpr (by norm_num)
  have hd := hf.distance.2
  have t4 := triangle hf root3.1
  have t5 := triangle hf root3.2
  rw [e4, e5, ← hf.bodies.1, ← hf.bodies.2.1, hy, hy]
  refine ⟨⟨t4.1, t4.2.2, by positivity⟩, ⟨t5.1, t5.2.2, ?_⟩⟩
  have : 0 < Real.sqrt 3 / 2 * f.distance := by positivity
  linarith

theorem cross_cross {w : ℝ} {z r : V} (hz : dot z z = 1) (hr : dot z r = 0) : cross (w • z) (cross (w • z) r) = (-(w ^ 2)) • r := by
  have h : cross (w • z) (cross (w • z) r) = (w ^ 2 * dot z r) • z - (w ^ 2 * dot z z) • r := by
    apply ext3 <;> simp [cross, dot] <;> ring
  rw [h, hz, hr]
  simp

/-- What is left of the residual at the guesses for L4 and L5 when the rate is that of a circular orbit. -/
theorem triangle_residual {k : Mu} (hs : 0 < k.sun) (he : 0 < k.earth) {sun earth moon v : V} {f : Frame} (hf : IsFrame k sun earth moon v f)
    (hw : f.omega ^ 2 * f.distance ^ 3 = k.sun + k.earth) {b : ℝ} (hb : b ^ 2 = 3 / 4) :
    residual k f (placed f (1 / 2) b) = pointMass (placed f (1 / 2) b) moon k.moon - f.originAccel := by
  obtain ⟨_, d1, d2⟩ := triangle hf hb
  have hd := hf.distance.2
  have hgrav : gravAccel (placed f (1 / 2) b) [(f.sun, k.sun), (f.earth, k.earth), (f.moon, k.moon)] =
      (k.sun / f.distance ^ 3) • (f.sun - placed f (1 / 2) b) + (k.earth / f.distance ^ 3) • (f.earth - placed f (1 / 2) b) + pointMass (placed f (1 / 2) b) f.moon k.moon := by
    unfold gravAccel pointMass
    simp only [List.foldl_cons, List.foldl_nil, d1, d2, if_pos hd]
    split <;> simp
  have ho := origin_eq hs he hf
  have hr : dot f.z (placed f (1 / 2) b - f.origin) = 0 := by
    have e : placed f (1 / 2) b - f.origin = (1 / 2 * f.distance - k.earth / (k.sun + k.earth) * f.distance) • f.x + (b * f.distance) • f.y := by
      unfold placed
      rw [ho]
      funext i
      simp only [Pi.add_apply, Pi.smul_apply, Pi.sub_apply, smul_eq_mul]
      ring
    rw [e]
    have : ∀ p q : ℝ, dot f.z (p • f.x + q • f.y) = p * dot f.x f.z + q * dot f.y f.z := by
      intro p q; simp only [dot, Pi.add_apply, Pi.smul_apply, smul_eq_mul]; ring
    rw [this, hf.axes.xz, hf.axes.yz]; ring
  unfold residual
  rw [hgrav, cross_cross hf.axes.zz hr, hf.bodies.2.2]
  have hk : k.sun + k.earth ≠ 0 := ne_of_gt (by linarith)
  have hsum : (k.sun / f.distance ^ 3) • (f.sun - placed f (1 / 2) b) + (k.earth / f.distance ^ 3) • (f.earth - placed f (1 / 2) b) =
      (-(f.omega ^ 2)) • (placed f (1 / 2) b - f.origin) := by
    have hw' : f.omega ^ 2 = (k.sun + k.earth) / f.distance ^ 3 := by rw [← hw]; field_simp
    rw [hw']
    have hc := hf.centre
    rw [← hf.bodies.1, ← hf.bodies.2.1] at hc
    funext i
    have c := congrFun hc i
    simp only [Pi.add_apply, Pi.smul_apply, Pi.sub_apply, smul_eq_mul, Pi.zero_apply] at c ⊢
    field_simp
    linarith
  rw [hsum]
  abel

/-- C146. Without the Moon, and at the rate of a circular orbit, the guesses for L4 and L5 are exact equilibria. -/
theorem triangles_equilibria {k : Mu} (hs : 0 < k.sun) (he : 0 < k.earth) (hm : k.moon = 0) {sun earth moon v : V} {f : Frame}
    (hmade : frameOf k sun earth moon v = .ok f) (hv : cross (earth - sun) v ≠ 0)
    (hw : f.omega ^ 2 * f.distance ^ 3 = k.sun + k.earth) : residual k f (seed k f .L4) = 0 ∧ residual k f (seed k f .L5) = 0 := by
  obtain ⟨f', e, hf⟩ := frame_made hs he (moon := moon) hv
  have : f' = f := by rw [hmade] at e; exact (Except.ok.inj e).symm
  subst this
  obtain ⟨γ, _, _, _, _, _, e4, e5⟩ := seeds_placed hs he hf
  have hpm : ∀ p q : V, pointMass p q k.moon = 0 := by
    intro p q
    unfold pointMass
    rw [hm]
    simp
  have hacc : f'.originAccel = 0 := by
    have : f'.originAccel = externalAccel k sun earth moon := by
      unfold frameOf at e
      dsimp only at e
      split_ifs at e with c1
      all_goals
        split at e
        · cases e
        · cases e; rfl
    rw [this]
    unfold externalAccel
    rw [hpm, hpm]
    simp
  rw [e4, e5, triangle_residual hs he hf hw root3.1, triangle_residual hs he hf hw root3.2, hpm, hpm, hacc]
  simp

/-! ### The threshold -/

theorem len_axis (a : ℝ) : len ![a, 0, 0] = |a| := by
  unfold len dot
  simp [Real.sqrt_mul_self_eq_abs]

/-- A Sun, an Earth and a Moon in line, the Earth moving at 30 km/s. -/
noncomputable def line : Frame :=
  ⟨0, ![150000000, 0, 0], ![150384400, 0, 0], ![(398600 / (132712440000 + 398600)) * 150000000, 0, 0], ![1, 0, 0], ![0, 1, 0], ![0, 0, 1],
    30 / 150000000, 150000000, externalAccel ⟨132712440000, 398600, 4903⟩ 0 ![150000000, 0, 0] ![150384400, 0, 0]⟩

theorem residual_line {x : ℝ} (hx : 0 < x) : residual ⟨132712440000, 398600, 4903⟩ line ![-x, 0, 0] =
    ![132712440000 / x ^ 2 + 398600 / (150000000 + x) ^ 2 + 4903 / (150384400 + x) ^ 2 -
      (132712440000 * (4903 / 150384400 ^ 2) + 398600 * (4903 / 384400 ^ 2)) / (132712440000 + 398600) -
      (30 / 150000000) ^ 2 * (x + (398600 / (132712440000 + 398600)) * 150000000), 0, 0] := by
  have e1 : (0 : V) - ![-x, 0, 0] = ![x, 0, 0] := by apply ext3 <;> simp
  have e2 : (![150000000, 0, 0] : V) - ![-x, 0, 0] = ![150000000 + x, 0, 0] := by apply ext3 <;> simp
  have e3 : (![150384400, 0, 0] : V) - ![-x, 0, 0] = ![150384400 + x, 0, 0] := by apply ext3 <;> simp
  have e4 : (![150384400, 0, 0] : V) - 0 = ![150384400, 0, 0] := by simp
  have e5 : (![150384400, 0, 0] : V) - ![150000000, 0, 0] = ![384400, 0, 0] := by apply ext3 <;> simp <;> norm_num
  have p2 : (0 : ℝ) < 150000000 + x := by linarith
  have p3 : (0 : ℝ) < 150384400 + x := by linarith
  unfold residual gravAccel line
  dsimp only [externalAccel, pointMass]
  simp only [List.foldl_cons, List.foldl_nil, e1, e2, e3, e4, e5, len_axis, abs_of_pos hx, abs_of_pos p2, abs_of_pos p3, if_pos hx, if_pos p2, if_pos p3,
    abs_of_pos (show (0 : ℝ) < 150384400 by norm_num), abs_of_pos (show (0 : ℝ) < 384400 by norm_num),
    if_pos (show (0 : ℝ) < 150384400 by norm_num), if_pos (show (0 : ℝ) < 384400 by norm_num)]
  apply ext3
  · simp [cross]
    field_simp
    ring
  · simp [cross]
  · simp [cross]

/-- C145, finding. The threshold of 10⁻⁶ km/s², by which the solver accepts its best point when the iterations run out, is a sixth of the Sun's attraction: two points
of the axis beyond the Sun, nine million kilometres apart, both pass it. -/
theorem threshold_is_loose : len (residual ⟨132712440000, 398600, 4903⟩ line ![-145500000, 0, 0]) ≤ 1 / 10 ^ 6 ∧
    len (residual ⟨132712440000, 398600, 4903⟩ line ![-154500000, 0, 0]) ≤ 1 / 10 ^ 6 ∧ len ((![-145500000, 0, 0] : V) - ![-154500000, 0, 0]) = 9000000 := by
  refine ⟨?_, ?_, ?_⟩
  · rw [residual_line (by norm_num), len_axis, abs_le]
    constructor <;> norm_num
  · rw [residual_line (by norm_num), len_axis, abs_le]
    constructor <;> norm_num
  · have : (![-145500000, 0, 0] : V) - ![-154500000, 0, 0] = ![9000000, 0, 0] := by apply ext3 <;> simp <;> norm_num
    rw [this, len_axis]
    norm_num

/-- The frame of the example is one of those the code makes. -/
theorem line_made : frameOf ⟨132712440000, 398600, 4903⟩ 0 ![150000000, 0, 0] ![150384400, 0, 0] ![0, 30, 0] = .ok line := by
  have e1 : (![150000000, 0, 0] : V) - 0 = ![150000000, 0, 0] := by simp
  have e2 : cross ![150000000, 0, 0] ![0, 30, 0] = ![0, 0, 4500000000] := by apply ext3 <;> simp [cross] <;> norm_num
  have e3 : len ![0, 0, 4500000000] = 4500000000 := by
    unfold len dot
    simp only [Matrix.cons_val_zero, Matrix.cons_val_one, Matrix.cons_val]
    rw [show (0 * 0 + 0 * 0 + 4500000000 * 4500000000 : ℝ) = 4500000000 ^ 2 by norm_num, Real.sqrt_sq (by norm_num)]
  have e4 : len ![150000000, 0, 0] = 150000000 := by rw [len_axis]; norm_num
  have e5 : (1 / 4500000000 : ℝ) • (![0, 0, 4500000000] : V) = ![0, 0, 1] := by apply ext3 <;> simp <;> norm_num
  have e6 : (1 / 150000000 : ℝ) • (![150000000, 0, 0] : V) = ![1, 0, 0] := by apply ext3 <;> simp <;> norm_num
  have e7 : cross ![0, 0, 1] ![1, 0, 0] = ![0, 1, 0] := by apply ext3 <;> simp [cross] <;> norm_num
  have e8 : normalize ![0, 1, 0] = some ![0, 1, 0] := by
    have : len ![0, 1, 0] = 1 := by unfold len dot; simp
    unfold normalize
    rw [this, if_pos one_pos]
    simp
  unfold frameOf
  dsimp only
  rw [e1, e2, e3, e4, if_neg (by norm_num), if_neg (by norm_num), e5, e6, e7, e8]
  dsimp only
  rw [if_pos (by norm_num)]
  unfold line
  congr 2
  · apply ext3 <;> simp <;> norm_num
  · norm_num

end Verif.Lagrange.Props
