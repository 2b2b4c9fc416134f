import Verif.CFrames.Model
import Verif.Earth.Network
import Verif.Earth.Angles
import Verif.Horizon.Props

/-! # Frame changes through the C interface -/

namespace Verif.CFrames.Props

open Verif.CFrames Verif.Earth Verif.Earth.Spec Verif.Earth.Props
open Verif.Horizon (toCart polarOf azimuthOf len)
open Verif.Ffi (Status)
open Matrix

/-! ### What a frame is -/

/-- The matrix that takes ICRS components to the components along a frame's axes: IAU 2006 precession (with frame bias),
the fixed obliquity of J2000, and for the true equator of date the nutation `dpsi`, `deps` of the context with its offsets. -/
noncomputable def axes (c : Ctx) (jd : ℝ) : CFrame → M3
  | .eclipticMeanJ2000 => rx (-j2000Obliquity) * bias
  | .equatorialMeanJ2000 => bias
  | .equatorialMeanOfDate => precession jd
  | .equatorialTrueOfDate =>
    precessionNutation jd (nutationWithOffsets (c.nut jd) (c.eopAtTt jd)).1 (nutationWithOffsets (c.nut jd) (c.eopAtTt jd)).2
  | _ => 1

/-- The frames of directions and of positions. -/
def dirFrames : List CFrame := [.icrs, .eclipticMeanJ2000, .equatorialMeanJ2000, .equatorialMeanOfDate, .equatorialTrueOfDate]
def posFrames : List CFrame := .icrf :: dirFrames

/-- The components along the axes of `dst` of what has components `v` along those of `src`. -/
noncomputable def seen (c : Ctx) (jd : ℝ) (src dst : CFrame) (v : V3) : V3 := (axes c jd dst * (axes c jd src)ᵀ) *ᵥ v

theorem axes_proper (c : Ctx) (jd : ℝ) (f : CFrame) : Proper (axes c jd f) := by
  cases f
  case eclipticMeanJ2000 => exact Proper.mul (proper_rx _) proper_bias
  case equatorialMeanJ2000 => exact proper_bias
  case equatorialMeanOfDate => exact proper_precession _
  case equatorialTrueOfDate => exact proper_npb _ _ _
  all_goals exact proper_one

theorem rot_into {f : CFrame} {a : Verif.Earth.Frame} (c : Ctx) (jd : ℝ) (h : posFrame f = some a) :
    rot c jd a .icrs = (axes c jd f)ᵀ ∧ rot c jd .icrs a = axes c jd f := by
  have p1 : plan 8 .icrs .icrs = some (.lit .identity) := rfl
  have p2 : plan 8 .eclipticJ2000 .icrs = some (.inv (.lit .icrsToEcliptic)) := rfl
  have p3 : plan 8 .icrs .eclipticJ2000 = some (.lit .icrsToEcliptic) := rfl
  have p4 : plan 8 .meanJ2000 .icrs = some (.lit .biasInv) := rfl
  have p5 : plan 8 .icrs .meanJ2000 = some (.lit .bias) := rfl
  have p6 : plan 8 .meanOfDate .icrs = some (.lit .precessionInv) := rfl
  have p7 : plan 8 .icrs .meanOfDate = some (.lit .precession) := rfl
  have p8 : plan 8 .trueOfDate .icrs = some (.inv (.lit .icrsToTod)) := rfl
  have p9 : plan 8 .icrs .trueOfDate = some (.lit .icrsToTod) := rfl
  have p10 : plan 8 .icrf .icrs = some (.lit .identity) := rfl
  have p11 : plan 8 .icrs .icrf = some (.inv (.lit .identity)) := rfl
  unfold rot Verif.Earth.rotation
  cases f <;> simp only [posFrame, dirFrame, Option.some.injEq, reduceCtorEq] at h <;> subst h
  · rw [p1]; simp [Plan.value, Lit.value, axes]
  · rw [p2, p3]; simp only [Option.map_some, Option.getD_some, Plan.value, Lit.value, axes, and_self]
  · rw [p4, p5]; simp only [Option.map_some, Option.getD_some, Plan.value, Lit.value, axes, and_self]
  · rw [p6, p7]; simp only [Option.map_some, Option.getD_some, Plan.value, Lit.value, axes, and_self]
  · rw [p8, p9]; simp only [Option.map_some, Option.getD_some, Plan.value, Lit.value, axes, and_self]
  · rw [p10, p11]; simp [Plan.value, Lit.value, axes]

theorem dir_pos {f : CFrame} {a : Verif.Earth.Frame} (h : dirFrame f = some a) : posFrame f = some a := by
  cases f <;> simp_all [dirFrame, posFrame]

theorem icrs_axes {f : CFrame} (c : Ctx) (jd : ℝ) (h : posFrame f = some .icrs) : axes c jd f = 1 := by
  cases f <;> simp_all [posFrame, dirFrame, axes]

theorem turn_seen {src dst : CFrame} {a b : Verif.Earth.Frame} (c : Ctx) (jd : ℝ) (v : V3) (ha : posFrame src = some a)
    (hb : posFrame dst = some b) : turn c jd a b v = seen c jd src dst v := by
  unfold turn seen
  simp only [(rot_into c jd ha).1]
  split
  · rename_i hi
    subst hi
    rw [icrs_axes c jd hb, Matrix.one_mul]
  · rw [(rot_into c jd hb).2, Matrix.mulVec_mulVec]

theorem dir_frames (f : CFrame) : (∃ a, dirFrame f = some a) ↔ f ∈ dirFrames := by
  cases f <;> simp [dirFrame, dirFrames]

theorem pos_frames (f : CFrame) : (∃ a, posFrame f = some a) ↔ f ∈ posFrames := by
  cases f <;> simp [dirFrame, dirFrames, posFrame, posFrames]

/-! ### Answers -/

/-- The status of a call: null output, null context, unknown frame, bad date, in that order. -/
def status (frames : List CFrame) (outNull ctxNull : Bool) (src dst : CFrame) (jd : Option ℝ) : Option Status :=
  if outNull ∨ ctxNull then some .nullPointer
  else if src ∉ frames ∨ dst ∉ frames then some .invalidFrame
  else if jd = none then some .invalidArgument
  else none

/-- A call answers the status, or else the value at the date. -/
def Says {α : Type} (r : Except Status α) (st : Option Status) (jd : Option ℝ) (value : ℝ → α) : Prop :=
  match st with
  | some e => r = .error e
  | none => ∃ t, jd = some t ∧ r = .ok (value t)

theorem checked_says {α : Type} {table : CFrame → Option Verif.Earth.Frame} {frames : List CFrame} (ht : ∀ f, (∃ a, table f = some a) ↔ f ∈ frames)
    (src dst : CFrame) (jd : Option ℝ) {f : Verif.Earth.Frame → Verif.Earth.Frame → ℝ → α} {value : ℝ → α}
    (hf : ∀ a b t, table src = some a → table dst = some b → f a b t = value t) :
    Says (checked table src dst jd f) (status frames false false src dst jd) jd value := by
  unfold checked status
  have none_not : ∀ f, table f = none → f ∉ frames := fun f h hm => by
    obtain ⟨a, ha⟩ := (ht f).2 hm
    rw [h] at ha; cases ha
  cases hs : table src with
  | none => simp [Says, none_not _ hs]
  | some a =>
    have hs' := (ht src).1 ⟨a, hs⟩
    cases hd : table dst with
    | none => simp [Says, none_not _ hd, hs']
    | some b =>
      have hd' := (ht dst).1 ⟨b, hd⟩
      cases jd with
      | none => simp [Says, hs', hd']
      | some t => simp [Says, hs', hd', hf a b t hs hd]

/-- **C212** A direction turned: status and value. -/
theorem cart_dir (w : World) (outNull : Bool) (v : V3) (src dst : CFrame) (jd : Option ℝ) :
    Says (cartDir w outNull v src dst jd) (status dirFrames outNull false src dst jd) jd
      (fun t => ⟨seen w.plain t src dst v, dst, "Barycentric", "AU"⟩) := by
  unfold cartDir
  cases outNull
  · exact checked_says dir_frames src dst jd fun a b t ha hb => by rw [turn_seen _ _ _ (dir_pos ha) (dir_pos hb)]
  · simp [Says, status]

/-- **C213** A direction turned with a context. -/
theorem cart_dir_with (w : World) (outNull : Bool) (c : Option Context) (v : V3) (src dst : CFrame) (jd : Option ℝ) :
    Says (cartDirWith w outNull c v src dst jd) (status dirFrames outNull c.isNone src dst jd) jd
      (fun t => ⟨c.elim v (fun c => seen (w.ctx c.model) t src dst v), dst, "Barycentric", "AU"⟩) := by
  unfold cartDirWith
  cases outNull
  · cases c with
    | none => simp [Says, status, requireModel, Except.bind]
    | some c => exact checked_says dir_frames src dst jd fun a b t ha hb => by rw [turn_seen _ _ _ (dir_pos ha) (dir_pos hb)]; rfl
  · simp [Says, status]

/-- **C212** A position turned: status and value; centre and unit kept. -/
theorem cart_pos (w : World) (outNull : Bool) (p : CPos) (dst : CFrame) (jd : Option ℝ) :
    Says (cartPos w outNull p dst jd) (status posFrames outNull false p.frame dst jd) jd
      (fun t => ⟨seen w.plain t p.frame dst p.v, dst, p.center, p.unit⟩) := by
  unfold cartPos
  cases outNull
  · exact checked_says pos_frames p.frame dst jd fun a b t ha hb => by rw [turn_seen _ _ _ ha hb]
  · simp [Says, status]

/-- **C213** A position turned with a context. -/
theorem cart_pos_with (w : World) (outNull : Bool) (c : Option Context) (p : CPos) (dst : CFrame) (jd : Option ℝ) :
    Says (cartPosWith w outNull c p dst jd) (status posFrames outNull c.isNone p.frame dst jd) jd
      (fun t => ⟨c.elim p.v (fun c => seen (w.ctx c.model) t p.frame dst p.v), dst, p.center, p.unit⟩) := by
  unfold cartPosWith
  cases outNull
  · cases c with
    | none => simp [Says, status, requireModel, Except.bind]
    | some c => exact checked_says pos_frames p.frame dst jd fun a b t ha hb => by rw [turn_seen _ _ _ ha hb]; rfl
  · simp [Says, status]

/-! ### What turning keeps -/

theorem proper_dot {m : M3} (h : Proper m) (u v : V3) : (m *ᵥ u) ⬝ᵥ (m *ᵥ v) = u ⬝ᵥ v := by
  rw [Matrix.dotProduct_mulVec, Matrix.vecMul_mulVec, ← Matrix.dotProduct_mulVec, h.1, Matrix.one_mulVec]

/-- **C212** Angles and lengths are kept, for any two vectors. -/
theorem seen_dot (c : Ctx) (jd : ℝ) (src dst : CFrame) (u v : V3) : seen c jd src dst u ⬝ᵥ seen c jd src dst v = u ⬝ᵥ v :=
  proper_dot (Proper.mul (axes_proper c jd dst) (proper_transpose (axes_proper c jd src))) u v

/-- **C212** Through any third frame, by any way, the same. -/
theorem seen_chain (c : Ctx) (jd : ℝ) (a b d : CFrame) (v : V3) : seen c jd b d (seen c jd a b v) = seen c jd a d v := by
  unfold seen
  rw [Matrix.mulVec_mulVec, Matrix.mul_assoc, ← Matrix.mul_assoc (axes c jd b)ᵀ, (axes_proper c jd b).1, Matrix.one_mul]

/-- **C212** In its own frame nothing changes. -/
theorem seen_self (c : Ctx) (jd : ℝ) (a : CFrame) (v : V3) : seen c jd a a v = v := by
  unfold seen
  rw [proper_right (axes_proper c jd a), Matrix.one_mulVec]

/-- A journey: turns from frame to frame, all at the same date, each from the answer before. -/
noncomputable def journey (w : World) (t : ℝ) (p : CPos) : List CFrame → Except Status CPos
  | [] => .ok p
  | f :: fs => (cartPos w false p f (some t)).bind (fun q => journey w t q fs)

/-- **C212** Any journey through frames of positions succeeds and ends where one turn to its last frame does. -/
theorem journey_direct (w : World) (t : ℝ) : ∀ (fs : List CFrame) (p : CPos), p.frame ∈ posFrames → (∀ f ∈ fs, f ∈ posFrames) →
    journey w t p fs = .ok ⟨seen w.plain t p.frame ((fs.getLast?).getD p.frame) p.v, (fs.getLast?).getD p.frame, p.center, p.unit⟩ := by
  intro fs
  induction fs with
  | nil =>
    intro p _ _
    simp only [journey, List.getLast?_nil, Option.getD_none, seen_self]
  | cons f fs ih =>
    intro p hp hfs
    have hf := hfs f List.mem_cons_self
    have h := cart_pos w false p f (some t)
    rw [show status posFrames false false p.frame f (some t) = none by simp [status, hp, hf]] at h
    obtain ⟨t', ht, hr⟩ := h
    obtain rfl := Option.some.inj ht
    rw [journey, hr]
    show journey w t _ fs = _
    rw [ih _ hf (fun g hg => hfs g (List.mem_cons_of_mem _ hg))]
    simp only [seen_chain]
    cases hl : fs.getLast? with
    | none => rw [List.getLast?_cons, hl]; rfl
    | some g => rw [List.getLast?_cons, hl]; rfl

/-! ### Contexts -/

/-- **C213** The default context is no context, for all the functions; and a context gives back its model. -/
theorem default_context (w : World) {c : Context} (hc : createDefault false = .ok c) :
    (∀ n v s d jd, cartDirWith w n (some c) v s d jd = cartDir w n v s d jd) ∧
    (∀ n p d jd, cartPosWith w n (some c) p d jd = cartPos w n p d jd) ∧
    (∀ n a s d jd, sphDirWith w n (some c) a s d jd = sphDir w n a s d jd) ∧
    (∀ n a s t u x, horizontalPreciseWith w n (some c) a s t u x = horizontalPrecise w n a s t u x) := by
  obtain rfl := Except.ok.inj hc
  exact ⟨fun _ _ _ _ _ => rfl, fun _ _ _ _ => rfl, fun _ _ _ _ _ => rfl, fun _ _ _ _ _ _ => rfl⟩

theorem context_model (m : Preset) {c : Context} (hc : createWithModel m false = .ok c) : getModel (some c) false = .ok m := by
  obtain rfl := Except.ok.inj hc
  rfl

/-- **C213** The model of the context matters only at the true equator of date. -/
theorem model_matters (w : World) (m m' : Preset) (jd : ℝ) {src dst : CFrame} (hs : src ≠ .equatorialTrueOfDate) (hd : dst ≠ .equatorialTrueOfDate)
    (v : V3) : seen (w.ctx m) jd src dst v = seen (w.ctx m') jd src dst v := by
  have : ∀ f, f ≠ .equatorialTrueOfDate → axes (w.ctx m) jd f = axes (w.ctx m') jd f := fun f hf => by
    cases f <;> first | rfl | exact absurd rfl hf
  unfold seen
  rw [this _ hs, this _ hd]

/-- **C213** The date matters only for the equators of date. -/
theorem date_matters (c : Ctx) (t t' : ℝ) {src dst : CFrame} (hs : src ∉ [CFrame.equatorialMeanOfDate, .equatorialTrueOfDate])
    (hd : dst ∉ [CFrame.equatorialMeanOfDate, .equatorialTrueOfDate]) (v : V3) : seen c t src dst v = seen c t' src dst v := by
  have : ∀ f, f ∉ [CFrame.equatorialMeanOfDate, .equatorialTrueOfDate] → axes c t f = axes c t' f := fun f hf => by
    cases f <;> first | rfl | simp at hf
  unfold seen
  rw [this _ hs, this _ hd]

/-! ### Angles -/

theorem seen_len (c : Ctx) (jd : ℝ) (src dst : CFrame) (v : V3) : len (seen c jd src dst v) = len v := by
  have h := seen_dot c jd src dst v v
  simp only [dotProduct, Fin.sum_univ_three] at h
  unfold len
  congr 1
  nlinarith [h]

theorem vector_len (d : Angles) : len (vector d) = 1 := Verif.Horizon.len_cart _ _

theorem vector_angles {v : V3} (h : len v = 1) : vector (angles v) = v := by
  have hp := Real.pi_ne_zero
  unfold vector angles
  have e : ∀ x : ℝ, x * (180 / Real.pi) * (Real.pi / 180) = x := fun x => by field_simp
  simp only [e]
  exact Verif.Horizon.unit_angles h

theorem sphTo_icrs {f : CFrame} {a : Verif.Earth.Frame} (c : Ctx) (jd : ℝ) (h : posFrame f = some a) (d : Angles) :
    vector (sphTo c jd a .icrs d) = seen c jd f .icrs (vector d) := by
  unfold sphTo
  rw [(rot_into c jd h).1]
  have e : (axes c jd f)ᵀ *ᵥ vector d = seen c jd f .icrs (vector d) := by
    unfold seen
    rw [show axes c jd .icrs = 1 from rfl, Matrix.one_mul]
  rw [e, vector_angles (by rw [seen_len, vector_len])]

theorem sphTo_from {f : CFrame} {a : Verif.Earth.Frame} (c : Ctx) (jd : ℝ) (h : posFrame f = some a) (d : Angles) :
    vector (sphTo c jd .icrs a d) = seen c jd .icrs f (vector d) := by
  unfold sphTo
  rw [(rot_into c jd h).2]
  have e : axes c jd f *ᵥ vector d = seen c jd .icrs f (vector d) := by
    unfold seen
    rw [show axes c jd .icrs = 1 from rfl, Matrix.transpose_one, Matrix.mul_one]
  rw [e, vector_angles (by rw [seen_len, vector_len])]

theorem angles_range (v : V3) : |(angles v).polar| ≤ 90 ∧ 0 ≤ (angles v).azimuth ∧ (angles v).azimuth < 360 := by
  have hp := Real.pi_pos
  have h1 := Real.arcsin_le_pi_div_two (v 2 / len v)
  have h2 := Real.neg_pi_div_two_le_arcsin (v 2 / len v)
  have h3 := Verif.Apparent.wrap_range (Verif.Apparent.atan2 (v 1) (v 0))
  have hk : 0 < 180 / Real.pi := by positivity
  have e1 : Real.pi / 2 * (180 / Real.pi) = 90 := by field_simp; norm_num
  have e2 : 2 * Real.pi * (180 / Real.pi) = 360 := by field_simp; norm_num
  unfold angles polarOf azimuthOf
  refine ⟨abs_le.2 ⟨?_, ?_⟩, mul_nonneg h3.1 hk.le, ?_⟩
  · calc (-90 : ℝ) = -(Real.pi / 2) * (180 / Real.pi) := by rw [neg_mul, e1]
      _ ≤ _ := mul_le_mul_of_nonneg_right h2 hk.le
  · calc _ ≤ Real.pi / 2 * (180 / Real.pi) := mul_le_mul_of_nonneg_right h1 hk.le
      _ = 90 := e1
  · calc _ < 2 * Real.pi * (180 / Real.pi) := mul_lt_mul_of_pos_right h3.2 hk
      _ = 360 := e2

theorem sph_value {src dst : CFrame} {a b : Verif.Earth.Frame} (c : Ctx) (jd : ℝ) (d : Angles) (ha : posFrame src = some a) (hb : posFrame dst = some b) :
    vector (sphTurn c jd a b d) = seen c jd src dst (vector d) ∧ |(sphTurn c jd a b d).polar| ≤ 90 ∧
      0 ≤ (sphTurn c jd a b d).azimuth ∧ (sphTurn c jd a b d).azimuth < 360 := by
  unfold sphTurn
  simp only
  split
  · rename_i hi
    subst hi
    refine ⟨?_, angles_range _⟩
    rw [sphTo_icrs c jd ha]
    unfold seen
    rw [icrs_axes c jd hb, show axes c jd .icrs = 1 from rfl]
  · refine ⟨?_, angles_range _⟩
    rw [sphTo_from c jd hb, sphTo_icrs c jd ha, seen_chain]

/-- **C212** A direction given by angles is turned as its vector is, and comes with angles in their ranges; the status as before. -/
theorem sph_dir (w : World) (outNull : Bool) (d : Angles) (src dst : CFrame) (jd : Option ℝ) :
    match status dirFrames outNull false src dst jd with
    | some e => sphDir w outNull d src dst jd = .error e
    | none => ∃ t r, jd = some t ∧ sphDir w outNull d src dst jd = .ok r ∧ r.frame = dst ∧
        vector ⟨r.polar, r.azimuth⟩ = seen w.plain t src dst (vector d) ∧ |r.polar| ≤ 90 ∧ 0 ≤ r.azimuth ∧ r.azimuth < 360 := by
  by_cases hs : src ∈ dirFrames
  · by_cases hd : dst ∈ dirFrames
    · obtain ⟨a, ha⟩ := (dir_frames src).2 hs
      obtain ⟨b, hb⟩ := (dir_frames dst).2 hd
      cases outNull
      · cases jd with
        | none => simp [status, hs, hd, sphDir, checked, ha, hb]
        | some t =>
          rw [show status dirFrames false false src dst (some t) = none by simp [status, hs, hd]]
          refine ⟨t, _, rfl, by simp only [sphDir, checked, ha, hb]; rfl, rfl, ?_⟩
          exact sph_value w.plain t d (dir_pos ha) (dir_pos hb)
      · simp [status, sphDir]
    · have hb : dirFrame dst = none := by
        cases h : dirFrame dst with
        | none => rfl
        | some b => exact absurd ((dir_frames dst).1 ⟨b, h⟩) hd
      obtain ⟨a, ha⟩ := (dir_frames src).2 hs
      cases outNull <;> simp [status, hs, hd, sphDir, checked, ha, hb]
  · have ha : dirFrame src = none := by
      cases h : dirFrame src with
      | none => rfl
      | some b => exact absurd ((dir_frames src).1 ⟨b, h⟩) hs
    cases outNull <;> simp [status, hs, sphDir, checked, ha]

/-! ### The horizon -/

/-- What the horizontal functions compute, whatever the context: the true direction of the context's model, along the
observer's axes at the sidereal time of the IAU 2006A nutation. -/
theorem horizon_value (w : World) (c : Ctx) (ut1 tt : ℝ) (s : Site) {f : CFrame} {a : Verif.Earth.Frame} (h : dirFrame f = some a) (d : Angles) :
    vector (toHorizon w c ut1 tt s a d) = Verif.Horizon.horizon (s.lat * (Real.pi / 180))
      (gast ut1 tt (w.nut .iau2006A tt).dpsi (w.nut .iau2006A tt).meanObliquity + s.lon * (Real.pi / 180))
      (seen c tt f .equatorialTrueOfDate (vector d)) := by
  unfold toHorizon World.horizon
  simp only
  have e : vector (sphTo c tt .icrs .trueOfDate (sphTo c tt a .icrs d)) = seen c tt f .equatorialTrueOfDate (vector d) := by
    rw [sphTo_from (f := .equatorialTrueOfDate) c tt rfl, sphTo_icrs c tt (dir_pos h), seen_chain]
  rw [e]
  have hl : len (seen c tt f .equatorialTrueOfDate (vector d)) = 1 := by rw [seen_len, vector_len]
  have hh := Verif.Horizon.to_horizontal_axes (gast ut1 tt (w.nut .iau2006A tt).dpsi (w.nut .iau2006A tt).meanObliquity)
    (s.lat * (Real.pi / 180)) (s.lon * (Real.pi / 180)) hl
  rw [vector_angles]
  · exact hh
  · unfold Verif.Horizon.toHorizontal
    exact Verif.Horizon.len_cart _ _

/-- **C213** With a model whose nutation in longitude is that of IAU 2006A the horizontal direction is the right one:
the observer's axes at that model's own apparent sidereal time. -/
theorem horizon_right (w : World) (m : Preset) (ut1 tt : ℝ) (s : Site) {f : CFrame} {a : Verif.Earth.Frame} (h : dirFrame f = some a) (d : Angles)
    (hn : (w.nut m tt).dpsi = (w.nut .iau2006A tt).dpsi) (ho : (w.nut m tt).meanObliquity = (w.nut .iau2006A tt).meanObliquity) :
    vector (toHorizon w (w.ctx m) ut1 tt s a d) = Verif.Horizon.horizon (s.lat * (Real.pi / 180))
      (gast ut1 tt (w.nut m tt).dpsi (w.nut m tt).meanObliquity + s.lon * (Real.pi / 180))
      (seen (w.ctx m) tt f .equatorialTrueOfDate (vector d)) := by
  rw [horizon_value w _ ut1 tt s h, hn, ho]

theorem gast_cos (ut1 tt d d' e e' : ℝ) : Real.cos (gast ut1 tt d' e' - gast ut1 tt d e) = Real.cos (d' * Real.cos e' - d * Real.cos e) := by
  obtain ⟨k, hk⟩ := (apparent_sidereal_time ut1 tt d e).2
  obtain ⟨k', hk'⟩ := (apparent_sidereal_time ut1 tt d' e').2
  rw [hk, hk']
  have : ∀ x y : ℝ, ∀ m : ℤ, x = y + m * (2 * Real.pi) → Real.cos x = Real.cos y := fun x y m h => by rw [h, Real.cos_add_int_mul_two_pi]
  apply this _ _ (k' - k)
  push_cast
  ring

/-- **C213, finding** With any other model the sidereal time is not that of the equinox the direction is counted from:
if the equations of the equinoxes of the two models differ (by less than a turn), some direction comes out wrong, at every
site and from every frame. -/
theorem horizon_mixes (w : World) (m : Preset) (ut1 tt : ℝ) (s : Site) {f : CFrame} {a : Verif.Earth.Frame} (h : dirFrame f = some a)
    (hd : (w.nut m tt).dpsi * Real.cos (w.nut m tt).meanObliquity ≠ (w.nut .iau2006A tt).dpsi * Real.cos (w.nut .iau2006A tt).meanObliquity)
    (hs : |(w.nut m tt).dpsi * Real.cos (w.nut m tt).meanObliquity - (w.nut .iau2006A tt).dpsi * Real.cos (w.nut .iau2006A tt).meanObliquity|
      < 2 * Real.pi) :
    ∃ d : Angles, vector (toHorizon w (w.ctx m) ut1 tt s a d) ≠ Verif.Horizon.horizon (s.lat * (Real.pi / 180))
      (gast ut1 tt (w.nut m tt).dpsi (w.nut m tt).meanObliquity + s.lon * (Real.pi / 180))
      (seen (w.ctx m) tt f .equatorialTrueOfDate (vector d)) := by
  have hne : Real.cos (gast ut1 tt (w.nut m tt).dpsi (w.nut m tt).meanObliquity -
      gast ut1 tt (w.nut .iau2006A tt).dpsi (w.nut .iau2006A tt).meanObliquity) ≠ 1 := by
    rw [gast_cos]
    intro h1
    have hb := abs_lt.1 hs
    exact hd (sub_eq_zero.1 ((Real.cos_eq_one_iff_of_lt_of_lt (by linarith [hb.1]) hb.2).1 h1))
  set g := gast ut1 tt (w.nut .iau2006A tt).dpsi (w.nut .iau2006A tt).meanObliquity with hg
  set g' := gast ut1 tt (w.nut m tt).dpsi (w.nut m tt).meanObliquity with hg'
  set lon := s.lon * (Real.pi / 180) with hlon
  set u : V3 := Verif.Apparent.Spec.east (g + lon) with hu
  have hul : len u = 1 := by
    rw [hu]
    unfold len
    rw [Real.sqrt_eq_one]
    simp only [Verif.Apparent.Spec.east, Matrix.cons_val_zero, Matrix.cons_val_one, Matrix.cons_val]
    have := Real.sin_sq_add_cos_sq (g + lon)
    nlinarith [this]
  set v := seen (w.ctx m) tt .equatorialTrueOfDate f u with hv
  have hvl : len v = 1 := by rw [hv, seen_len, hul]
  refine ⟨angles v, ?_⟩
  rw [horizon_value w _ ut1 tt s h, vector_angles hvl, hv, seen_chain, seen_self]
  intro he
  have h1 := congrFun he 1
  simp only [Verif.Horizon.horizon, Matrix.cons_val_one, Matrix.cons_val_zero] at h1
  rw [← hg, ← hlon, hu] at h1
  simp only [dotProduct, Fin.sum_univ_three, Verif.Apparent.Spec.east, Matrix.cons_val_zero, Matrix.cons_val_one, Matrix.cons_val] at h1
  apply hne
  have : Real.cos (g' - g) = Real.cos ((g' + lon) - (g + lon)) := by congr 1; ring
  rw [this, Real.cos_sub]
  have e := Real.sin_sq_add_cos_sq (g + lon)
  nlinarith [h1, e]

/-- **C212, finding** The answer has azimuth and altitude in each other's place. -/
theorem horizon_stored (w : World) (d : Angles) {src : CFrame} {a : Verif.Earth.Frame} (h : dirFrame src = some a) (tt ut1 : ℝ) (s : Site) :
    horizontalPrecise w false d src (some tt) (some ut1) s =
      .ok ⟨(toHorizon w w.plain ut1 tt s a d).azimuth, (toHorizon w w.plain ut1 tt s a d).polar, .horizontal⟩ := by
  unfold horizontalPrecise
  simp only [h]
  rfl

theorem offsets_turn {c : Ctx} {jd : ℝ} (hx : (c.eopAtTt jd).dx = 0) (hy : (c.eopAtTt jd).dy ≠ 0) (hl : |(c.eopAtTt jd).dy| < 648000000) :
    precessionNutation jd (nutationWithOffsets (c.nut jd) (c.eopAtTt jd)).1 (nutationWithOffsets (c.nut jd) (c.eopAtTt jd)).2 ≠
      precessionNutation jd (c.nut jd).dpsi (c.nut jd).deps := by
  have hp := Real.pi_pos
  set d := arcsec ((c.eopAtTt jd).dy / 1000) with hd
  have hd0 : d ≠ 0 := by
    rw [hd]
    unfold arcsec
    have : Real.pi ≠ 0 := hp.ne'
    positivity
  have e : nutationWithOffsets (c.nut jd) (c.eopAtTt jd) = ((c.nut jd).dpsi, (c.nut jd).deps + d) := by
    unfold nutationWithOffsets
    have z : arcsec ((c.eopAtTt jd).dx / 1000) = 0 := by rw [hx]; simp [arcsec]
    simp only [z, ← hd]
    rw [if_pos (Or.inr hd0)]
    simp
  rw [e]
  intro he
  have split : precessionNutation jd (c.nut jd).dpsi ((c.nut jd).deps + d) = rx d * precessionNutation jd (c.nut jd).dpsi (c.nut jd).deps := by
    unfold precessionNutation fwMatrix
    simp only
    rw [show (fwAngles jd).epsa + ((c.nut jd).deps + d) = d + ((fwAngles jd).epsa + (c.nut jd).deps) by ring, rx_add]
    simp only [Matrix.mul_assoc]
  simp only at he
  rw [split] at he
  have one : rx d = 1 := by
    have hn := proper_right (proper_npb jd (c.nut jd).dpsi (c.nut jd).deps)
    calc rx d = rx d * (precessionNutation jd (c.nut jd).dpsi (c.nut jd).deps * (precessionNutation jd (c.nut jd).dpsi (c.nut jd).deps)ᵀ) := by
          rw [hn, Matrix.mul_one]
      _ = 1 := by rw [← Matrix.mul_assoc, he, hn]
  have lt : |d| < Real.pi := by
    rw [hd]
    unfold arcsec
    rw [show (c.eopAtTt jd).dy / 1000 * (Real.pi / 180) / 3600 = (c.eopAtTt jd).dy * (Real.pi / 648000000) by ring, abs_mul,
      abs_of_pos (by positivity : 0 < Real.pi / 648000000)]
    calc _ < 648000000 * (Real.pi / 648000000) := mul_lt_mul_of_pos_right hl (by positivity)
      _ = Real.pi := by ring
  exact hd0 ((Real.sin_eq_zero_iff_of_lt_of_lt (abs_lt.mp lt).1 (abs_lt.mp lt).2).mp (rx_eq_one one))

/-- **C212, finding** With an observed pole offset the C interface and the direct rotation of the library
(`to_frame::<EquatorialTrueOfDate>` of a J2000 direction) give different answers. -/
theorem c_and_library {c : Ctx} {jd : ℝ} (hx : (c.eopAtTt jd).dx = 0) (hy : (c.eopAtTt jd).dy ≠ 0) (hl : |(c.eopAtTt jd).dy| < 648000000) :
    ∃ v, turn c jd .meanJ2000 .trueOfDate v ≠ rot c jd .meanJ2000 .trueOfDate *ᵥ v := by
  by_contra hall
  push Not at hall
  have p : plan 8 .meanJ2000 .trueOfDate = some (.lit .j2000ToTod) := rfl
  have r : rot c jd .meanJ2000 .trueOfDate = precessionNutation jd (c.nut jd).dpsi (c.nut jd).deps * biasᵀ := by
    unfold rot Verif.Earth.rotation
    rw [p]
    simp only [Option.map_some, Option.getD_some, Plan.value, Lit.value]
  apply offsets_turn (c := c) hx hy hl
  apply Matrix.ext_of_mulVec_single
  intro i
  have h := hall (bias *ᵥ Pi.single i 1)
  rw [turn_seen (src := .equatorialMeanJ2000) (dst := .equatorialTrueOfDate) c jd _ rfl rfl, r] at h
  unfold seen at h
  simp only [axes] at h
  rw [Matrix.mulVec_mulVec, Matrix.mulVec_mulVec, Matrix.mul_assoc, Matrix.mul_assoc, proper_bias.1, Matrix.mul_one, Matrix.mul_one] at h
  exact h

/-! ### Instances -/

/-- A world with a quarter of an arcsecond between the models and a pole offset. -/
noncomputable def sampleWorld : World where
  base := ⟨fun _ => ⟨0, 0, 0⟩, fun _ => ⟨0, 0, 0, 0, 1⟩, some, id, id, fun _ => none, 1, 1⟩
  nut m jd := match m with
    | .iau2006A => ⟨0, 0, meanObliquity jd⟩
    | _ => ⟨1 / 1000000, 0, meanObliquity jd⟩

example : ∃ v, turn sampleWorld.plain 2460000 .meanJ2000 .trueOfDate v ≠ rot sampleWorld.plain 2460000 .meanJ2000 .trueOfDate *ᵥ v := by
  apply c_and_library
  · rfl
  · show (1 : ℝ) ≠ 0
    norm_num
  · show |(1 : ℝ)| < 648000000
    norm_num

example (t : ℝ) (v : V3) : ∃ q, journey sampleWorld t ⟨v, .icrf, "Geocentric", "km"⟩ [.equatorialTrueOfDate, .eclipticMeanJ2000, .icrf] = .ok q ∧ q.v = v := by
  have h := journey_direct sampleWorld t [.equatorialTrueOfDate, .eclipticMeanJ2000, .icrf] ⟨v, .icrf, "Geocentric", "km"⟩ (by simp [posFrames])
    (by simp [posFrames, dirFrames])
  exact ⟨_, h, seen_self _ _ _ _⟩

example (ut1 : ℝ) (s : Site) : ∃ d : Angles, vector (toHorizon sampleWorld (sampleWorld.ctx .iau2000B) ut1 2451545 s .icrs d) ≠
    Verif.Horizon.horizon (s.lat * (Real.pi / 180))
      (gast ut1 2451545 (1 / 1000000) (meanObliquity 2451545) + s.lon * (Real.pi / 180))
      (seen (sampleWorld.ctx .iau2000B) 2451545 .icrs .equatorialTrueOfDate (vector d)) := by
  have hp := Real.pi_gt_three
  have hc : 0 < Real.cos (meanObliquity 2451545) := by
    have : meanObliquity 2451545 = Real.pi * (84381.406 / 648000) := by unfold meanObliquity centuries arcsec; simp; ring
    rw [this]
    apply Real.cos_pos_of_mem_Ioo
    constructor
    · nlinarith
    · have : (84381.406 / 648000 : ℝ) < 1 / 2 := by norm_num
      nlinarith
  have hc1 := Real.cos_le_one (meanObliquity 2451545)
  apply horizon_mixes (f := .icrs) sampleWorld .iau2000B ut1 2451545 s rfl
  · show (1 / 1000000 : ℝ) * Real.cos (meanObliquity 2451545) ≠ 0 * Real.cos (meanObliquity 2451545)
    rw [zero_mul]
    positivity
  · show |(1 / 1000000 : ℝ) * Real.cos (meanObliquity 2451545) - 0 * Real.cos (meanObliquity 2451545)| < 2 * Real.pi
    rw [zero_mul, sub_zero, abs_of_pos (by positivity)]
    nlinarith

example : status dirFrames false false .icrf .icrs (some 0) = some .invalidFrame := by simp [status, dirFrames]
example : status posFrames false false .icrf .icrs (some 0) = none := by simp [status, dirFrames, posFrames]

end Verif.CFrames.Props
