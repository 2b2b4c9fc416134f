import Verif.Earth.Model
import Verif.Earth.Spec
import Mathlib.Tactic.Linarith
import Mathlib.Tactic.Ring
import Mathlib.Tactic.FinCases
import Mathlib.LinearAlgebra.Matrix.NonsingularInverse

/-!
# The network of frame rotations is consistent
-/

namespace Verif.Earth.Props

open Verif.Earth Verif.Earth.Spec Matrix

/-! ## Elementary rotations -/

theorem rx_add (a b : ℝ) : rx (a + b) = rx a * rx b := by
  ext i j
  fin_cases i <;> fin_cases j <;>
    simp [rx, Matrix.mul_apply, Fin.sum_univ_three, Real.cos_add, Real.sin_add] <;> ring

theorem ry_add (a b : ℝ) : ry (a + b) = ry a * ry b := by
  ext i j
  fin_cases i <;> fin_cases j <;>
    simp [ry, Matrix.mul_apply, Fin.sum_univ_three, Real.cos_add, Real.sin_add] <;> ring

theorem rz_add (a b : ℝ) : rz (a + b) = rz a * rz b := by
  ext i j
  fin_cases i <;> fin_cases j <;>
    simp [rz, Matrix.mul_apply, Fin.sum_univ_three, Real.cos_add, Real.sin_add] <;> ring

theorem rx_zero : rx 0 = 1 := by
  ext i j
  fin_cases i <;> fin_cases j <;> simp [rx]

theorem ry_zero : ry 0 = 1 := by
  ext i j
  fin_cases i <;> fin_cases j <;> simp [ry]

theorem rz_zero : rz 0 = 1 := by
  ext i j
  fin_cases i <;> fin_cases j <;> simp [rz]

theorem rx_transpose (a : ℝ) : (rx a)ᵀ = rx (-a) := by
  ext i j
  fin_cases i <;> fin_cases j <;> simp [rx]

theorem ry_transpose (a : ℝ) : (ry a)ᵀ = ry (-a) := by
  ext i j
  fin_cases i <;> fin_cases j <;> simp [ry]

theorem rz_transpose (a : ℝ) : (rz a)ᵀ = rz (-a) := by
  ext i j
  fin_cases i <;> fin_cases j <;> simp [rz]

theorem Proper.mul {m n : M3} (hm : Proper m) (hn : Proper n) : Proper (m * n) := by
  constructor
  · calc (m * n)ᵀ * (m * n) = nᵀ * (mᵀ * m) * n := by
          rw [Matrix.transpose_mul]; simp only [Matrix.mul_assoc]
      _ = 1 := by rw [hm.1, Matrix.mul_one, hn.1]
  · rw [Matrix.det_mul, hm.2, hn.2, one_mul]

theorem proper_one : Proper (1 : M3) := ⟨by simp, by simp⟩

theorem proper_right {m : M3} (h : Proper m) : m * mᵀ = 1 := mul_eq_one_comm.mp h.1

theorem proper_transpose {m : M3} (h : Proper m) : Proper mᵀ :=
  ⟨by rw [Matrix.transpose_transpose]; exact proper_right h, by rw [Matrix.det_transpose]; exact h.2⟩

theorem proper_rx (a : ℝ) : Proper (rx a) := by
  constructor
  · rw [rx_transpose, ← rx_add, neg_add_cancel, rx_zero]
  · simp [rx, Matrix.det_fin_three]
    nlinarith [Real.sin_sq_add_cos_sq a]

theorem proper_ry (a : ℝ) : Proper (ry a) := by
  constructor
  · rw [ry_transpose, ← ry_add, neg_add_cancel, ry_zero]
  · simp [ry, Matrix.det_fin_three]
    nlinarith [Real.sin_sq_add_cos_sq a]

theorem proper_rz (a : ℝ) : Proper (rz a) := by
  constructor
  · rw [rz_transpose, ← rz_add, neg_add_cancel, rz_zero]
  · simp [rz, Matrix.det_fin_three]
    nlinarith [Real.sin_sq_add_cos_sq a]

theorem proper_fw (a b c d : ℝ) : Proper (fwMatrix a b c d) :=
  Proper.mul (Proper.mul (Proper.mul (proper_rx _) (proper_rz _)) (proper_rx _)) (proper_rz _)

theorem proper_precession (jd : ℝ) : Proper (precession jd) := proper_fw _ _ _ _
theorem proper_npb (jd a b : ℝ) : Proper (precessionNutation jd a b) := proper_fw _ _ _ _
theorem proper_bias : Proper bias := proper_precession _
theorem proper_polar (x y s : ℝ) : Proper (polarMotion x y s) :=
  Proper.mul (Proper.mul (proper_rz _) (proper_ry _)) (proper_rx _)
theorem proper_nutation (n : Nut) : Proper (nutationMatrix n) :=
  Proper.mul (Proper.mul (proper_rx _) (proper_rz _)) (proper_rx _)

/-- The written-out intermediate matrix as a product of elementary rotations. -/
theorem cirs_product (x y s : ℝ) :
    cirsMatrix x y s = rz (atan2 y x + s)
      * ry (atan2 (Real.sqrt (x * x + y * y)) (Real.sqrt (max (1 - (x * x + y * y)) 0)))
      * rz (-atan2 y x) := by
  ext i j
  fin_cases i <;> fin_cases j <;>
    simp [cirsMatrix, rz, ry, Matrix.mul_apply, Fin.sum_univ_three] <;> try ring

theorem proper_cirs (x y s : ℝ) : Proper (cirsMatrix x y s) := by
  rw [cirs_product]
  exact Proper.mul (Proper.mul (proper_rz _) (proper_ry _)) (proper_rz _)

/-- Applying nutation after precession is the combined matrix. -/
theorem nutation_precession (jd : ℝ) (n : Nut) (h : n.meanObliquity = meanObliquity jd) :
    nutationMatrix n * precession jd = precessionNutation jd n.dpsi n.deps := by
  have he : (fwAngles jd).epsa = n.meanObliquity := by rw [h]; rfl
  unfold nutationMatrix precession precessionNutation fwMatrix
  simp only [he]
  rw [add_comm (fwAngles jd).psib, rz_add]
  have c : rx (-n.meanObliquity) * rx n.meanObliquity = 1 := by
    rw [← rx_add, neg_add_cancel, rx_zero]
  calc rx (n.meanObliquity + n.deps) * rz n.dpsi * rx (-n.meanObliquity)
        * (rx n.meanObliquity * rz (fwAngles jd).psib * rx (-(fwAngles jd).phib)
          * rz (-(fwAngles jd).gamb))
      = rx (n.meanObliquity + n.deps) * rz n.dpsi * (rx (-n.meanObliquity) * rx n.meanObliquity)
        * rz (fwAngles jd).psib * rx (-(fwAngles jd).phib) * rz (-(fwAngles jd).gamb) := by
        simp only [Matrix.mul_assoc]
    _ = _ := by rw [c, Matrix.mul_one]; simp only [Matrix.mul_assoc]

/-! ## The reference orientation of each frame -/

/-- The rotation from ICRS to each frame. -/
noncomputable def ref (c : Ctx) (jd : ℝ) : Frame → M3
  | .icrs => 1
  | .icrf => 1
  | .gcrs => 1
  | .eclipticJ2000 => rx (-j2000Obliquity) * bias
  | .meanJ2000 => bias
  | .eme2000 => bias
  | .meanOfDate => precession jd
  | .trueOfDate =>
    precessionNutation jd (nutationWithOffsets (c.nut jd) (c.eopAtTt jd)).1
      (nutationWithOffsets (c.nut jd) (c.eopAtTt jd)).2
  | .teme => (rz ((c.nut jd).dpsi * Real.cos (c.nut jd).meanObliquity))ᵀ
      * precessionNutation jd (nutationWithOffsets (c.nut jd) (c.eopAtTt jd)).1
        (nutationWithOffsets (c.nut jd) (c.eopAtTt jd)).2
  | .cirs => c.gcrsToCirs jd (c.eopAtTt jd)
  | .tirs => c.cirsToTirs jd (c.eopAtTt jd) * c.gcrsToCirs jd (c.eopAtTt jd)
  | .itrf => tirsToItrf jd (c.eopAtTt jd)
      * (c.cirsToTirs jd (c.eopAtTt jd) * c.gcrsToCirs jd (c.eopAtTt jd))
  | .ecef => tirsToItrf jd (c.eopAtTt jd)
      * (c.cirsToTirs jd (c.eopAtTt jd) * c.gcrsToCirs jd (c.eopAtTt jd))
  | .galactic => c.galacticᵀ
  | .fk4 => c.fk4ᵀ * bias

/-- The assumptions on the parameters: the catalogue matrices are proper rotations and the
nutation model reports the IAU 2006 mean obliquity (`nut00a.rs:318, 331`, `mod.rs:318`). -/
structure Sound (c : Ctx) (jd : ℝ) : Prop where
  galactic : Proper c.galactic
  fk4 : Proper c.fk4
  obliquity : (c.nut jd).meanObliquity = meanObliquity jd

theorem proper_ref {c : Ctx} {jd : ℝ} (h : Sound c jd) (f : Frame) : Proper (ref c jd f) := by
  have hc : Proper (c.gcrsToCirs jd (c.eopAtTt jd)) := proper_cirs _ _ _
  have ht : Proper (c.cirsToTirs jd (c.eopAtTt jd)) := proper_rz _
  have hi : Proper (tirsToItrf jd (c.eopAtTt jd)) := proper_polar _ _ _
  cases f <;> simp only [ref]
  · exact proper_one
  · exact proper_one
  · exact proper_one
  · exact Proper.mul (proper_rx _) proper_bias
  · exact proper_bias
  · exact proper_bias
  · exact proper_precession _
  · exact proper_npb _ _ _
  · exact Proper.mul (proper_transpose (proper_rz _)) (proper_npb _ _ _)
  · exact hc
  · exact Proper.mul ht hc
  · exact Proper.mul hi (Proper.mul ht hc)
  · exact Proper.mul hi (Proper.mul ht hc)
  · exact proper_transpose h.galactic
  · exact Proper.mul (proper_transpose h.fk4) proper_bias

/-- The pairs whose direct rotation leaves out the observed celestial-pole offsets. -/
def WithoutOffsets (a b : Frame) : Prop :=
  (b = .trueOfDate ∧ (a = .meanJ2000 ∨ a = .eme2000 ∨ a = .meanOfDate))
    ∨ (a = .trueOfDate ∧ (b = .meanJ2000 ∨ b = .eme2000 ∨ b = .meanOfDate))

instance (a b : Frame) : Decidable (WithoutOffsets a b) := by
  unfold WithoutOffsets; infer_instance

/-- No celestial-pole offset is in force. -/
def NoOffsets (c : Ctx) (jd : ℝ) : Prop := (c.eopAtTt jd).dx = 0 ∧ (c.eopAtTt jd).dy = 0

theorem no_offsets {n : Nut} {e : Eop} (h1 : e.dx = 0) (h2 : e.dy = 0) :
    nutationWithOffsets n e = (n.dpsi, n.deps) := by
  unfold nutationWithOffsets
  simp [h1, h2, arcsec]

theorem eqToEcl_inv : (rx (-j2000Obliquity))ᵀ = rx j2000Obliquity := by
  rw [rx_transpose, neg_neg]

theorem proper_left_cancel {m : M3} (h : Proper m) (n : M3) : m * (mᵀ * n) = n := by
  rw [← Matrix.mul_assoc, proper_right h, Matrix.one_mul]

/-- Every written-out matrix takes the one reference orientation to the other. -/
theorem lit_value {c : Ctx} {jd : ℝ} (h : Sound c jd) {a b : Frame} {l : Lit}
    (hs : step a b = some (.lit l)) (ho : NoOffsets c jd ∨ ¬WithoutOffsets a b) :
    l.value c jd = ref c jd b * (ref c jd a)ᵀ := by
  by_cases hab : a = b
  · subst hab
    simp only [step, if_true, Option.some.injEq, Step.lit.injEq] at hs
    subst hs
    rw [proper_right (proper_ref h a)]
    rfl
  have hb := proper_bias
  have hc : Proper (c.gcrsToCirs jd (c.eopAtTt jd)) := proper_cirs _ _ _
  have ht : Proper (c.cirsToTirs jd (c.eopAtTt jd)) := proper_rz _
  have hi : Proper (tirsToItrf jd (c.eopAtTt jd)) := proper_polar _ _ _
  have hn : NoOffsets c jd →
      nutationWithOffsets (c.nut jd) (c.eopAtTt jd) = ((c.nut jd).dpsi, (c.nut jd).deps) :=
    fun h => no_offsets h.1 h.2
  cases a <;> cases b <;> simp [step] at hs hab <;> subst hs <;>
    simp only [Lit.value, ref, Matrix.transpose_one, Matrix.mul_one, Matrix.one_mul,
      Matrix.transpose_mul, Matrix.transpose_transpose]
  · rw [proper_left_cancel hb, eqToEcl_inv]
  · rw [Matrix.mul_assoc, proper_right hb, Matrix.mul_one]
  · rw [hn (ho.resolve_right (by decide))]
  · rw [proper_right hb]
  · rw [hn (ho.resolve_right (by decide)), ← nutation_precession jd _ h.obliquity,
      Matrix.mul_assoc, proper_right (proper_precession jd), Matrix.mul_one]
  · rw [hn (ho.resolve_right (by decide))]
  · rw [proper_left_cancel (proper_npb _ _ _)]
  · rw [Matrix.mul_assoc, proper_right hc, Matrix.mul_one]
  · rw [← Matrix.transpose_mul, Matrix.mul_assoc, proper_right (Proper.mul ht hc), Matrix.mul_one]
  · rw [← Matrix.transpose_mul, ← Matrix.transpose_mul,
      proper_right (Proper.mul hi (Proper.mul ht hc))]
  · rw [proper_left_cancel hb]

/-- An alias stands for frames of the same orientation. -/
theorem alias_ref (c : Ctx) (jd : ℝ) {a b a' b' : Frame} (hs : step a b = some (.alias a' b')) :
    ref c jd a' = ref c jd a ∧ ref c jd b' = ref c jd b
      ∧ (¬WithoutOffsets a b → ¬WithoutOffsets a' b') := by
  by_cases hab : a = b
  · subst hab
    simp [step] at hs
  cases a <;> cases b <;> simp [step] at hs hab <;> obtain ⟨rfl, rfl⟩ := hs <;>
    exact ⟨rfl, rfl, by decide⟩

theorem via_clean {a b m : Frame} (hs : step a b = some (.via m)) :
    ¬WithoutOffsets a m ∧ ¬WithoutOffsets m b := by
  by_cases hab : a = b
  · subst hab
    simp [step] at hs
  cases a <;> cases b <;> simp [step] at hs hab <;> subst hs <;> exact ⟨by decide, by decide⟩

theorem without_symm {a b : Frame} (h : ¬WithoutOffsets a b) : ¬WithoutOffsets b a := by
  revert h
  cases a <;> cases b <;> decide

/-- Every unfolded request takes the one reference orientation to the other. -/
theorem plan_value {c : Ctx} {jd : ℝ} (h : Sound c jd) : ∀ (n : Nat) (a b : Frame) (p : Plan),
    NoOffsets c jd ∨ ¬WithoutOffsets a b → plan n a b = some p →
      p.value c jd = ref c jd b * (ref c jd a)ᵀ := by
  intro n
  induction n with
  | zero => intro a b p _ hp; simp [plan] at hp
  | succ n ih =>
    intro a b p ho hp
    rw [plan] at hp
    cases hs : step a b with
    | none => rw [hs] at hp; simp at hp
    | some s =>
      rw [hs] at hp
      cases s with
      | lit l =>
        simp only [Option.some.injEq] at hp
        subst hp
        exact lit_value h hs ho
      | «alias» a' b' =>
        simp only at hp
        obtain ⟨ea, eb, hw⟩ := alias_ref c jd hs
        rw [ih a' b' p (ho.imp id hw) hp, ea, eb]
      | via m =>
        simp only at hp
        obtain ⟨w1, w2⟩ := via_clean hs
        cases h1 : plan n a m with
        | none => rw [h1] at hp; simp at hp
        | some left =>
          cases h2 : plan n m b with
          | none => rw [h1, h2] at hp; simp at hp
          | some right =>
            rw [h1, h2] at hp
            simp only [Option.some.injEq] at hp
            subst hp
            rw [Plan.value, ih _ _ _ (Or.inr w1) h1, ih _ _ _ (Or.inr w2) h2, Matrix.mul_assoc,
              ← Matrix.mul_assoc _ (ref c jd m), (proper_ref h m).1, Matrix.one_mul]
      | inverse =>
        simp only [Option.map_eq_some_iff] at hp
        obtain ⟨q, hq, rfl⟩ := hp
        rw [Plan.value, ih _ _ _ (ho.imp id without_symm) hq, Matrix.transpose_mul,
          Matrix.transpose_transpose]

theorem rotation_value {c : Ctx} {jd : ℝ} (h : Sound c jd) {a b : Frame} {m : M3}
    (ho : NoOffsets c jd ∨ ¬WithoutOffsets a b) (hm : rotation c jd a b = some m) :
    m = ref c jd b * (ref c jd a)ᵀ := by
  unfold rotation at hm
  rw [Option.map_eq_some_iff] at hm
  obtain ⟨p, hp, rfl⟩ := hm
  exact plan_value h 8 a b p ho hp

theorem chain_value {c : Ctx} {jd : ℝ} (h : Sound c jd) {ok : Frame → Frame → Prop}
    (hok : ∀ a b, ok a b → NoOffsets c jd ∨ ¬WithoutOffsets a b) {a b : Frame} {m : M3}
    (hm : Chain (rotation c jd) ok a b m) : m = ref c jd b * (ref c jd a)ᵀ := by
  induction hm with
  | refl => rw [proper_right (proper_ref h _)]
  | step _ hr hk ih =>
    rw [ih, rotation_value h (hok _ _ hk) hr, Matrix.mul_assoc, ← Matrix.mul_assoc _ (ref c jd _),
      (proper_ref h _).1, Matrix.one_mul]

/-- **C101.** Without celestial-pole offsets, every two chains of frame rotations between the same
two frames, of any length, give the same matrix, and it is a proper rotation. -/
theorem frames_consistent {c : Ctx} {jd : ℝ} (h : Sound c jd) (ho : NoOffsets c jd)
    {a b : Frame} {m n : M3} (hm : Chain (rotation c jd) (fun _ _ => True) a b m)
    (hn : Chain (rotation c jd) (fun _ _ => True) a b n) : m = n ∧ Proper m := by
  have e1 := chain_value h (fun _ _ _ => Or.inl ho) hm
  have e2 := chain_value h (fun _ _ _ => Or.inl ho) hn
  refine ⟨e1.trans e2.symm, ?_⟩
  rw [e1]
  exact Proper.mul (proper_ref h _) (proper_transpose (proper_ref h _))

/-- **C101.** With any offsets, the same holds for chains that never step directly between the
true equator of date and the mean equators of date or of J2000. -/
theorem frames_consistent_offsets {c : Ctx} {jd : ℝ} (h : Sound c jd)
    {a b : Frame} {m n : M3}
    (hm : Chain (rotation c jd) (fun a b => ¬WithoutOffsets a b) a b m)
    (hn : Chain (rotation c jd) (fun a b => ¬WithoutOffsets a b) a b n) : m = n ∧ Proper m := by
  have e1 := chain_value h (fun _ _ k => Or.inr k) hm
  have e2 := chain_value h (fun _ _ k => Or.inr k) hn
  refine ⟨e1.trans e2.symm, ?_⟩
  rw [e1]
  exact Proper.mul (proper_ref h _) (proper_transpose (proper_ref h _))

/-- The unfolding of a request ends whenever an implementation exists. -/
theorem plan_exists (a b : Frame) : (plan 8 a b).isSome = (step a b).isSome := by
  cases a <;> cases b <;> decide +kernel

/-- The same context with all Earth orientation parameters zero. -/
def bare (c : Ctx) : Ctx := { c with eopAt := fun _ => Eop.zero }

theorem bare_sound {c : Ctx} {jd : ℝ} (h : Sound c jd) : Sound (bare c) jd :=
  ⟨h.galactic, h.fk4, h.obliquity⟩

theorem bare_no_offsets (c : Ctx) (jd : ℝ) : NoOffsets (bare c) jd := by
  unfold NoOffsets Ctx.eopAtTt bare
  cases c.utcFromTt jd <;> exact ⟨rfl, rfl⟩

theorem without_bare (c : Ctx) (jd : ℝ) {a b : Frame} (hw : WithoutOffsets a b) :
    rotation c jd a b = rotation (bare c) jd a b := by
  have p1 : plan 8 .meanJ2000 .trueOfDate = some (.lit .j2000ToTod) := rfl
  have p2 : plan 8 .eme2000 .trueOfDate = some (.lit .j2000ToTod) := rfl
  have p3 : plan 8 .meanOfDate .trueOfDate = some (.lit .modToTod) := rfl
  have p4 : plan 8 .trueOfDate .meanJ2000 = some (.lit .todToJ2000) := rfl
  have p5 : plan 8 .trueOfDate .eme2000 = some (.inv (.lit .j2000ToTod)) := rfl
  have p6 : plan 8 .trueOfDate .meanOfDate = some (.inv (.lit .modToTod)) := rfl
  unfold rotation
  rcases hw with ⟨rfl, rfl | rfl | rfl⟩ | ⟨rfl, rfl | rfl | rfl⟩
  · rw [p1]; simp only [Option.map_some, Plan.value, Lit.value, bare]
  · rw [p2]; simp only [Option.map_some, Plan.value, Lit.value, bare]
  · rw [p3]; simp only [Option.map_some, Plan.value, Lit.value, bare]
  · rw [p4]; simp only [Option.map_some, Plan.value, Lit.value, bare]
  · rw [p5]; simp only [Option.map_some, Plan.value, Lit.value, bare]
  · rw [p6]; simp only [Option.map_some, Plan.value, Lit.value, bare]

/-- **C101.** Every implemented pair of frames yields a proper rotation, and the opposite pair is
implemented and yields its inverse, with any offsets. -/
theorem rotation_back {c : Ctx} {jd : ℝ} (h : Sound c jd) {a b : Frame}
    (hs : (step a b).isSome) :
    ∃ m n, rotation c jd a b = some m ∧ rotation c jd b a = some n
      ∧ Proper m ∧ n * m = 1 ∧ m * n = 1 := by
  have hs' : (step b a).isSome := by
    revert hs
    cases a <;> cases b <;> decide +kernel
  have e1 := plan_exists a b
  have e2 := plan_exists b a
  rw [hs] at e1
  rw [hs'] at e2
  obtain ⟨p, hp⟩ := Option.isSome_iff_exists.mp e1
  obtain ⟨q, hq⟩ := Option.isSome_iff_exists.mp e2
  have r1 : ∀ c, rotation c jd a b = some (p.value c jd) := fun c => by
    unfold rotation; rw [hp]; rfl
  have r2 : ∀ c, rotation c jd b a = some (q.value c jd) := fun c => by
    unfold rotation; rw [hq]; rfl
  have main : ∀ c, Sound c jd → (NoOffsets c jd ∨ ¬WithoutOffsets a b) →
      Proper (p.value c jd) ∧ q.value c jd * p.value c jd = 1
        ∧ p.value c jd * q.value c jd = 1 := by
    intro c h ho
    have v1 := rotation_value h ho (r1 c)
    have v2 := rotation_value h (ho.imp id without_symm) (r2 c)
    have pr : Proper (p.value c jd) := by
      rw [v1]
      exact Proper.mul (proper_ref h _) (proper_transpose (proper_ref h _))
    have ht : q.value c jd = (p.value c jd)ᵀ := by
      rw [v1, v2, Matrix.transpose_mul, Matrix.transpose_transpose]
    rw [ht]
    exact ⟨pr, pr.1, proper_right pr⟩
  refine ⟨_, _, r1 c, r2 c, ?_⟩
  by_cases hw : WithoutOffsets a b
  · have b1 := without_bare c jd hw
    have b2 := without_bare c jd (a := b) (b := a) (by
      by_contra hn
      exact without_symm hn hw)
    rw [r1, r1] at b1
    rw [r2, r2] at b2
    rw [Option.some.inj b1, Option.some.inj b2]
    exact main (bare c) (bare_sound h) (Or.inl (bare_no_offsets c jd))
  · exact main c h (Or.inr hw)

/-- **C101.** Every two frames are connected: there is a rotation from each to ICRS and back. -/
theorem frames_connected (a : Frame) : (step a .icrs).isSome ∧ (step .icrs a).isSome := by
  cases a <;> decide +kernel

theorem rx_eq_one {a : ℝ} (h : rx a = 1) : Real.sin a = 0 := by
  have := congrFun (congrFun h 2) 1
  simpa [rx] using this

/-- **C101, finding.** The observed celestial-pole offsets are applied on the direct path from ICRS
to the true equator of date but not on the paths through the mean equators: with an offset
`0 < |dY| < 648000000` mas the path through the mean equator of date gives another matrix. -/
theorem offsets_lost {c : Ctx} {jd : ℝ} (h : Sound c jd) (hx : (c.eopAtTt jd).dx = 0)
    (hy : (c.eopAtTt jd).dy ≠ 0) (hl : |(c.eopAtTt jd).dy| < 648000000) :
    ∃ m n, Chain (rotation c jd) (fun _ _ => True) .icrs .trueOfDate m
      ∧ Chain (rotation c jd) (fun _ _ => True) .icrs .trueOfDate n ∧ m ≠ n := by
  have hp := Real.pi_pos
  have p1 : plan 8 .icrs .trueOfDate = some (.lit .icrsToTod) := rfl
  have p2 : plan 8 .icrs .meanOfDate = some (.lit .precession) := rfl
  have p3 : plan 8 .meanOfDate .trueOfDate = some (.lit .modToTod) := rfl
  have r1 : rotation c jd .icrs .trueOfDate
      = some (precessionNutation jd (nutationWithOffsets (c.nut jd) (c.eopAtTt jd)).1
        (nutationWithOffsets (c.nut jd) (c.eopAtTt jd)).2) := by
    unfold rotation; rw [p1]; simp only [Option.map_some, Plan.value, Lit.value]
  have r2 : rotation c jd .icrs .meanOfDate = some (precession jd) := by
    unfold rotation; rw [p2]; simp only [Option.map_some, Plan.value, Lit.value]
  have r3 : rotation c jd .meanOfDate .trueOfDate = some (nutationMatrix (c.nut jd)) := by
    unfold rotation; rw [p3]; simp only [Option.map_some, Plan.value, Lit.value]
  refine ⟨precessionNutation jd (nutationWithOffsets (c.nut jd) (c.eopAtTt jd)).1
      (nutationWithOffsets (c.nut jd) (c.eopAtTt jd)).2 * 1,
    nutationMatrix (c.nut jd) * (precession jd * 1),
    .step (.refl _) r1 trivial, .step (.step (.refl _) r2 trivial) r3 trivial, ?_⟩
  rw [Matrix.mul_one, Matrix.mul_one, nutation_precession jd _ h.obliquity]
  set d := arcsec ((c.eopAtTt jd).dy / 1000) with hd
  have hd0 : d ≠ 0 := by
    rw [hd]
    unfold arcsec
    have : Real.pi ≠ 0 := hp.ne'
    positivity
  have e : nutationWithOffsets (c.nut jd) (c.eopAtTt jd) = ((c.nut jd).dpsi, (c.nut jd).deps + d) := by
    unfold nutationWithOffsets
    have z : arcsec ((c.eopAtTt jd).dx / 1000) = 0 := by rw [hx]; simp [arcsec]
    simp only [z, ← hd]
    rw [if_pos (Or.inr hd0)]
    simp
  rw [e]
  intro he
  have split : precessionNutation jd (c.nut jd).dpsi ((c.nut jd).deps + d)
      = rx d * precessionNutation jd (c.nut jd).dpsi (c.nut jd).deps := by
    unfold precessionNutation fwMatrix
    simp only
    rw [show (fwAngles jd).epsa + ((c.nut jd).deps + d) = d + ((fwAngles jd).epsa + (c.nut jd).deps) by
      ring, rx_add]
    simp only [Matrix.mul_assoc]
  simp only at he
  rw [split] at he
  have one : rx d = 1 := by
    have hn := proper_right (proper_npb jd (c.nut jd).dpsi (c.nut jd).deps)
    calc rx d = rx d * (precessionNutation jd (c.nut jd).dpsi (c.nut jd).deps
          * (precessionNutation jd (c.nut jd).dpsi (c.nut jd).deps)ᵀ) := by
          rw [hn, Matrix.mul_one]
      _ = 1 := by rw [← Matrix.mul_assoc, he, hn]
  have hs := rx_eq_one one
  have lt : |d| < Real.pi := by
    rw [hd]
    unfold arcsec
    rw [show (c.eopAtTt jd).dy / 1000 * (Real.pi / 180) / 3600
      = (c.eopAtTt jd).dy * (Real.pi / 648000000) by ring, abs_mul,
      abs_of_pos (by positivity : 0 < Real.pi / 648000000)]
    calc _ < 648000000 * (Real.pi / 648000000) :=
          mul_lt_mul_of_pos_right hl (by positivity)
      _ = Real.pi := by ring
  have := (Real.sin_eq_zero_iff_of_lt_of_lt (abs_lt.mp lt).1 (abs_lt.mp lt).2).mp hs
  exact hd0 this

end Verif.Earth.Props
