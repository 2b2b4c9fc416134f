import Mathlib.LinearAlgebra.Matrix.NonsingularInverse
import Mathlib.LinearAlgebra.Matrix.Determinant.Basic
import Mathlib.Data.Matrix.Basic
import Mathlib.Tactic.LinearCombination
import Mathlib.Tactic.FinCases
import Mathlib.Tactic.NoncommRing
import Verif.Frames.Model

/-
Properties C39 to C41 and C64: orientation constants, frame rotations, their resolution.
-/
namespace Verif.Frames.Props
open Verif.Text Verif.TextKernel

/-- The matrix of an array. -/
def mat (m : M3) : Matrix (Fin 3) (Fin 3) ℝ := Matrix.of m

/-- A rotation or reflection. -/
def Orthogonal (m : M3) : Prop := (mat m).transpose * mat m = 1

theorem mat_inj {a b : M3} (h : mat a = mat b) : a = b := Matrix.of.injective h

theorem mat_mul (l r : M3) : mat (mat3Mul l r) = mat l * mat r := by
  ext i j
  simp only [mat, mat3Mul, Matrix.mul_apply, Fin.sum_univ_three, Matrix.of_apply]
  ring

theorem mat_transpose (m : M3) : mat (mat3Transpose m) = (mat m).transpose := by
  ext i j
  fin_cases i <;> fin_cases j <;> rfl

theorem mat_identity : mat identity3 = 1 := by
  ext i j
  fin_cases i <;> fin_cases j <;> simp [mat, identity3, rows]

theorem orthogonal_mul {a b : M3} (ha : Orthogonal a) (hb : Orthogonal b) : Orthogonal (mat3Mul a b) := by
  unfold Orthogonal at *
  rw [mat_mul, Matrix.transpose_mul]
  calc (mat b).transpose * (mat a).transpose * (mat a * mat b)
      = (mat b).transpose * ((mat a).transpose * mat a) * mat b := by simp only [Matrix.mul_assoc]
    _ = 1 := by rw [ha, Matrix.mul_one, hb]

theorem orthogonal_identity : Orthogonal identity3 := by
  unfold Orthogonal
  rw [mat_identity]
  simp

theorem orthogonal_right {m : M3} (h : Orthogonal m) : mat m * (mat m).transpose = 1 :=
  mul_eq_one_comm.mp h

/-! ### C39 -/

theorem r3_mat (a : ℝ) : Orthogonal (r3 a) ∧ (mat (r3 a)).det = 1 := by
  have h := Real.sin_sq_add_cos_sq a
  constructor
  · unfold Orthogonal
    ext i j
    fin_cases i <;> fin_cases j <;>
      simp [mat, r3, rows, Matrix.mul_apply, Fin.sum_univ_three] <;> nlinarith [h]
  · rw [Matrix.det_fin_three]
    simp [mat, r3, rows]
    linear_combination h

theorem r1_mat (a : ℝ) : Orthogonal (r1 a) ∧ (mat (r1 a)).det = 1 := by
  have h := Real.sin_sq_add_cos_sq a
  constructor
  · unfold Orthogonal
    ext i j
    fin_cases i <;> fin_cases j <;>
      simp [mat, r1, rows, Matrix.mul_apply, Fin.sum_univ_three] <;> nlinarith [h]
  · rw [Matrix.det_fin_three]
    simp [mat, r1, rows]
    linear_combination h

/-- The matrix from orientation constants is a proper rotation. -/
theorem pole_matrix_proper (ra dec w : ℝ) : Orthogonal (poleMatrix ra dec w) ∧ (mat (poleMatrix ra dec w)).det = 1 := by
  unfold poleMatrix
  refine ⟨orthogonal_mul (orthogonal_mul (r3_mat _).1 (r1_mat _).1) (r3_mat _).1, ?_⟩
  rw [mat_mul, mat_mul, Matrix.det_mul, Matrix.det_mul, (r3_mat _).2, (r1_mat _).2, (r3_mat _).2]
  norm_num

/-- The direction with right ascension `ra` and declination `dec`. -/
noncomputable def direction (ra dec : ℝ) : Fin 3 → ℝ :=
  ![Real.cos dec * Real.cos ra, Real.cos dec * Real.sin ra, Real.sin dec]

/-- The image of the body's +Z axis. -/
def poleImage (m : M3) : Fin 3 → ℝ := (mat m).mulVec ![0, 0, 1]

/-- What the code computes: the pole lands on the direction with the right ascension negated. -/
theorem pole_image (ra dec w : ℝ) : poleImage (poleMatrix ra dec w) = direction (-ra) dec := by
  unfold poleImage poleMatrix
  rw [mat_mul, mat_mul]
  ext i
  fin_cases i <;>
    simp [mat, r1, r3, rows, direction, Matrix.mulVec, dotProduct, Fin.sum_univ_three, Matrix.mul_apply,
      Real.sin_add, Real.cos_add, Real.sin_sub, Real.cos_sub] <;> ring

/-- The claim holds exactly for poles whose direction has no second component. -/
theorem pole_correct_iff_partial (ra dec w : ℝ) :
    poleImage (poleMatrix ra dec w) = direction ra dec ↔ Real.cos dec * Real.sin ra = 0 := by
  rw [pole_image]
  constructor
  · intro h
    have := congrFun h 1
    simp [direction] at this
    have h2 : Real.cos dec * Real.sin ra = 0 := by linarith
    simpa using h2
  · intro h
    ext i
    fin_cases i
    · simp [direction]
    · simp only [direction, Real.sin_neg]
      simp
      linarith
    · simp [direction]

/-- The rotation returned for a body: with nonempty constants, a proper rotation whose pole image is as
above. -/
theorem body_rotation_partial (b : Body) (tdb : ℝ) (h1 : b.poleRa ≠ []) (h2 : b.poleDec ≠ []) (h3 : b.pm ≠ []) :
    ∃ m, rotationToJ2000 b tdb = .ok m ∧ Orthogonal m ∧ (mat m).det = 1 ∧
      poleImage m = direction (-toRadians (b.poleRa.headD 0 + b.poleRa.tail.headD 0 * (tdb / (36525 * 86400))))
        (toRadians (b.poleDec.headD 0 + b.poleDec.tail.headD 0 * (tdb / (36525 * 86400)))) := by
  obtain ⟨a, l, ha⟩ := List.exists_cons_of_ne_nil h1
  obtain ⟨a', l', ha'⟩ := List.exists_cons_of_ne_nil h2
  obtain ⟨a'', l'', ha''⟩ := List.exists_cons_of_ne_nil h3
  unfold rotationToJ2000
  rw [ha, ha', ha'']
  exact ⟨_, rfl, (pole_matrix_proper _ _ _).1, (pole_matrix_proper _ _ _).2, pole_image _ _ _⟩

/-- The image of the body's +X axis (the prime meridian), for the angle `w` of the prime meridian in degrees
with its rate per day: the node at right ascension `-ra - 90` turned by `w`. -/
theorem meridian_image (b : Body) (tdb : ℝ) {m : M3} (h : rotationToJ2000 b tdb = .ok m) :
    ∃ ra dec w, poleImage m = direction (-ra) dec ∧
      w = toRadians (b.pm.headD 0 + b.pm.tail.headD 0 * (tdb / 86400)) ∧
      (mat m).mulVec ![1, 0, 0] = fun i => Real.cos w * direction (-ra - Real.pi / 2) 0 i +
        Real.sin w * direction (-ra) (dec - Real.pi / 2) i := by
  unfold rotationToJ2000 at h
  dsimp only at h
  rcases hb1 : b.poleRa with _ | ⟨c1, l1⟩ <;> rw [hb1] at h
  · simp [Frames.linear] at h
  rcases hb2 : b.poleDec with _ | ⟨c2, l2⟩ <;> rw [hb2] at h
  · simp [Frames.linear] at h
  rcases hb3 : b.pm with _ | ⟨c3, l3⟩ <;> rw [hb3] at h
  · simp [Frames.linear] at h
  simp only [Frames.linear, Res.ok.injEq] at h
  refine ⟨_, _, _, by rw [← h]; exact pole_image _ _ _, rfl, ?_⟩
  rw [← h]
  simp only [List.headD_cons, List.tail_cons]
  generalize toRadians _ = ra
  generalize toRadians _ = dec
  generalize toRadians _ = w
  unfold poleMatrix
  rw [mat_mul, mat_mul]
  ext i
  fin_cases i <;>
    simp [mat, r1, r3, rows, direction, Matrix.mulVec, dotProduct, Fin.sum_univ_three, Matrix.mul_apply,
      Real.sin_add, Real.cos_add, Real.sin_sub, Real.cos_sub] <;> ring

/-- Disagreement: a pole at right ascension 90 degrees, declination 0 comes out at 270 degrees. -/
theorem pole_wrong : ∃ m, rotationToJ2000 ⟨[90], [0], [0]⟩ 0 = .ok m ∧ poleImage m ≠ direction (Real.pi / 2) 0 := by
  refine ⟨_, rfl, ?_⟩
  have : toRadians (90 + ([] : List ℝ).headD 0 * (0 / (36525 * 86400))) = Real.pi / 2 := by
    simp [toRadians]; ring
  rw [this]
  have h0 : toRadians (0 + ([] : List ℝ).headD 0 * (0 / (36525 * 86400))) = 0 := by simp [toRadians]
  rw [h0, Ne, pole_correct_iff_partial]
  simp

/-! ### C40 -/

/-- What the resolution of a frame without a constant matrix can return is orthogonal. -/
theorem body_orthogonal (c : Ctx) (body : Int) (tdb : ℝ) {m : M3} (h : iauBodyRotation c body tdb = .ok m) :
    Orthogonal m := by
  unfold iauBodyRotation at h
  generalize c.pcks.reverse = l at h
  induction l with
  | nil => simp [bodyLoop] at h
  | cons p rest ih =>
    unfold bodyLoop at h
    split at h
    · rename_i o _
      unfold rotationToJ2000 at h
      dsimp only at h
      repeat' split at h
      all_goals first
        | (simp at h; done)
        | (cases h; exact (pole_matrix_proper _ _ _).1)
    · exact ih h

/-- Every constant matrix loaded is orthogonal. -/
def MatricesOk (c : Ctx) : Prop := ∀ f ∈ c.frames, ∀ m r, f.tk = some (m, r) → Orthogonal m

theorem frameById_mem {c : Ctx} {id : Int} {f : Frame} (h : frameById c id = some f) : f ∈ c.frames ∧ f.id = id := by
  unfold frameById at h
  refine ⟨by simpa using List.mem_of_find?_eq_some h, by simpa using List.find?_some h⟩

theorem frame_orthogonal {c : Ctx} (hc : MatricesOk c) {tdb : ℝ} : ∀ {n : Nat} {id : Int} {m : M3},
    frameToJ2000 c tdb n id = some (.ok m) → Orthogonal m
  | 0, id, m, h => by simp [frameToJ2000] at h
  | n + 1, id, m, h => by
    unfold frameToJ2000 at h
    split at h
    · simp only [Option.some.injEq, Res.ok.injEq] at h
      rw [← h]
      exact orthogonal_identity
    · split at h
      · simp at h
      · rename_i spec hspec
        split at h
        · rename_i mm relName htk
          split at h
          · simp at h
          · rename_i rel hrel
            split at h
            · simp at h
            · rename_i r hr
              simp only [Option.some.injEq, Res.ok.injEq] at h
              rw [← h]
              exact orthogonal_mul (frame_orthogonal hc hr) (hc spec (frameById_mem hspec).1 mm relName htk)
            · rename_i x hno hx
              simp only [Option.some.injEq] at h
              subst h
              exact absurd rfl (hno m)
        · split at h
          · simp only [Option.some.injEq] at h
            exact body_orthogonal c spec.classId tdb h
          · simp at h

/-- From a frame to itself: the identity. -/
theorem rotation_self (c : Ctx) (tdb : ℝ) (n : Nat) (a : Int) : rotationNaif c tdb n a a = some (.ok identity3) := by
  simp [rotationNaif]

/-- The rotation in terms of the two frame orientations. -/
theorem rotation_eq {c : Ctx} (hc : MatricesOk c) {tdb : ℝ} {n : Nat} {a b : Int} {fa fb : M3}
    (ha : frameToJ2000 c tdb n a = some (.ok fa)) (hb : frameToJ2000 c tdb n b = some (.ok fb)) :
    ∃ m, rotationNaif c tdb n a b = some (.ok m) ∧ mat m = (mat fb).transpose * mat fa := by
  unfold rotationNaif
  split
  · rename_i h
    subst h
    rw [ha] at hb
    simp only [Option.some.injEq, Res.ok.injEq] at hb
    subst hb
    refine ⟨_, rfl, ?_⟩
    rw [mat_identity]
    exact (frame_orthogonal hc ha).symm
  · rw [ha, hb]
    refine ⟨_, rfl, ?_⟩
    rw [mat_mul, mat_transpose]

/-- Any rotation returned between different frames comes from the two orientations. -/
theorem rotation_ok {c : Ctx} {tdb : ℝ} {n : Nat} {a b : Int} {m : M3}
    (h : rotationNaif c tdb n a b = some (.ok m)) (hab : a ≠ b) :
    ∃ fa fb, frameToJ2000 c tdb n a = some (.ok fa) ∧ frameToJ2000 c tdb n b = some (.ok fb) ∧
      m = mat3Mul (mat3Transpose fb) fa := by
  unfold rotationNaif at h
  rw [if_neg hab] at h
  split at h
  · simp at h
  · simp at h
  · simp at h
  · rename_i f hf
    split at h
    · simp at h
    · simp at h
    · simp at h
    · rename_i t ht
      simp only [Option.some.injEq, Res.ok.injEq] at h
      exact ⟨f, t, hf, ht, h.symm⟩

/-- Rotating from A to B and then from B to C is rotating from A to C, whenever the first two rotations are
returned. -/
theorem rotations_compose {c : Ctx} (hc : MatricesOk c) {tdb : ℝ} {n : Nat} {x y z : Int} {m1 m2 : M3}
    (h1 : rotationNaif c tdb n x y = some (.ok m1)) (h2 : rotationNaif c tdb n y z = some (.ok m2)) :
    rotationNaif c tdb n x z = some (.ok (mat3Mul m2 m1)) := by
  by_cases hxy : x = y
  · subst hxy
    rw [rotation_self] at h1
    simp only [Option.some.injEq, Res.ok.injEq] at h1
    subst h1
    rw [h2]
    congr 2
    apply mat_inj
    rw [mat_mul, mat_identity, Matrix.mul_one]
  · by_cases hyz : y = z
    · subst hyz
      rw [rotation_self] at h2
      simp only [Option.some.injEq, Res.ok.injEq] at h2
      subst h2
      rw [h1]
      congr 2
      apply mat_inj
      rw [mat_mul, mat_identity, Matrix.one_mul]
    · obtain ⟨fx, fy, hx, hy, rfl⟩ := rotation_ok h1 hxy
      obtain ⟨fy', fz, hy', hz, rfl⟩ := rotation_ok h2 hyz
      rw [hy] at hy'
      simp only [Option.some.injEq, Res.ok.injEq] at hy'
      subst hy'
      obtain ⟨m, hm, hmat⟩ := rotation_eq hc hx hz
      rw [hm]
      congr 2
      apply mat_inj
      rw [hmat, mat_mul, mat_mul, mat_mul, mat_transpose, mat_transpose]
      calc (mat fz).transpose * mat fx = (mat fz).transpose * (mat fy * (mat fy).transpose) * mat fx := by
            rw [orthogonal_right (frame_orthogonal hc hy), Matrix.mul_one]
        _ = _ := by simp only [Matrix.mul_assoc]

/-- Rotating back is the transpose, whenever the rotation is returned. -/
theorem rotation_back {c : Ctx} {tdb : ℝ} {n : Nat} {x y : Int} {m : M3}
    (h : rotationNaif c tdb n x y = some (.ok m)) :
    rotationNaif c tdb n y x = some (.ok (mat3Transpose m)) := by
  by_cases hxy : x = y
  · subst hxy
    rw [rotation_self] at h ⊢
    simp only [Option.some.injEq, Res.ok.injEq] at h
    subst h
    simp only [Option.some.injEq, Res.ok.injEq]
    apply mat_inj
    rw [mat_transpose, mat_identity, Matrix.transpose_one]
  · obtain ⟨fx, fy, hx, hy, rfl⟩ := rotation_ok h hxy
    unfold rotationNaif
    rw [if_neg (Ne.symm hxy), hy, hx]
    simp only [Option.some.injEq, Res.ok.injEq]
    apply mat_inj
    rw [mat_transpose, mat_mul, mat_mul, Matrix.transpose_mul, mat_transpose, mat_transpose,
      Matrix.transpose_transpose]

/-- A returned rotation is orthogonal. -/
theorem rotation_orthogonal {c : Ctx} (hc : MatricesOk c) {tdb : ℝ} {n : Nat} {x y : Int} {m : M3}
    (h : rotationNaif c tdb n x y = some (.ok m)) : Orthogonal m := by
  by_cases hxy : x = y
  · subst hxy
    rw [rotation_self] at h
    simp only [Option.some.injEq, Res.ok.injEq] at h
    subst h
    exact orthogonal_identity
  · obtain ⟨fx, fy, hx, hy, rfl⟩ := rotation_ok h hxy
    refine orthogonal_mul ?_ (frame_orthogonal hc hx)
    unfold Orthogonal
    rw [mat_transpose, Matrix.transpose_transpose]
    exact orthogonal_right (frame_orthogonal hc hy)

/-- The rotation does not depend on how much recursion is allowed, once it is enough. -/
theorem frame_fuel_mono {c : Ctx} {tdb : ℝ} : ∀ {n : Nat} {id : Int} {r : Res Err M3},
    frameToJ2000 c tdb n id = some r → frameToJ2000 c tdb (n + 1) id = some r
  | 0, id, r, h => by simp [frameToJ2000] at h
  | n + 1, id, r, h => by
    rw [frameToJ2000] at h ⊢
    split
    · rename_i h1
      rwa [if_pos h1] at h
    · rename_i h1
      rw [if_neg h1] at h
      split
      · rename_i hs
        rw [hs] at h
        exact h
      · rename_i spec hs
        rw [hs] at h
        simp only at h
        split
        · rename_i m rn htk
          rw [htk] at h
          simp only at h
          split
          · rename_i hn
            rw [hn] at h
            exact h
          · rename_i rel hn
            rw [hn] at h
            simp only at h
            rcases hr : frameToJ2000 c tdb n rel.id with _ | x
            · rw [hr] at h; simp at h
            · rw [frame_fuel_mono hr]
              rw [hr] at h
              exact h
        · rename_i htk
          rw [htk] at h
          exact h

/-- A frame with a constant matrix: first the matrix, then the rotation of the frame it is relative to. -/
theorem frame_relative {c : Ctx} {tdb : ℝ} {n : Nat} {id : Int} {f rel : Frame} {m r : M3} {nm : Str} (h1 : id ≠ 1)
    (hf : frameById c id = some f) (htk : f.tk = some (m, nm)) (hr : frameByName c nm = some rel)
    (hrel : frameToJ2000 c tdb n rel.id = some (.ok r)) :
    ∃ x, frameToJ2000 c tdb (n + 1) id = some (.ok x) ∧ mat x = mat r * mat m := by
  rw [frameToJ2000, if_neg h1, hf]
  simp only [htk, hr, hrel]
  exact ⟨_, rfl, mat_mul _ _⟩

/-- Of several frames loaded under one identifier or name, the last counts. -/
theorem last_frame_wins {c : Ctx} {a b : List Frame} {f : Frame} (h : c.frames = a ++ f :: b) :
    ((∀ g ∈ b, g.id ≠ f.id) → frameById c f.id = some f) ∧
    (∀ nm, upper nm = f.name → (∀ g ∈ b, g.name ≠ f.name) → frameByName c nm = some f) := by
  constructor
  · intro hb
    unfold frameById
    rw [h, List.reverse_append, List.reverse_cons, List.append_assoc, List.find?_append]
    have : List.find? (fun g => decide (g.id = f.id)) b.reverse = none := by
      rw [List.find?_eq_none]
      intro g hg
      simpa using hb g (List.mem_reverse.mp hg)
    rw [this]
    simp
  · intro nm hn hb
    unfold frameByName
    rw [h, hn, List.reverse_append, List.reverse_cons, List.append_assoc, List.find?_append]
    have : List.find? (fun g => decide (g.name = f.name)) b.reverse = none := by
      rw [List.find?_eq_none]
      intro g hg
      simpa using hb g (List.mem_reverse.mp hg)
    rw [this]
    simp

/-- A context with a rotated frame, a body-fixed frame and a frame on top of it. -/
def demoCtx : Ctx where
  frames := [j2000, ⟨-100, "A".toList, .twoVector, -100, some (rows 0 1 0 (-1) 0 0 0 0 1, "j2000".toList)⟩,
    ⟨10013, "IAU_MARS".toList, .pck, 499, none⟩,
    ⟨-200, "B".toList, .twoVector, -200, some (rows 0 0 1 1 0 0 0 1 0, "IAU_MARS".toList)⟩]
  pcks := [fun i => if i = 499 then some ⟨[317], [52], [176, 350]⟩ else none]

theorem demo_matrices : MatricesOk demoCtx := by
  intro f hf m r hm
  simp only [demoCtx, List.mem_cons, List.not_mem_nil, or_false] at hf
  rcases hf with rfl | rfl | rfl | rfl
  · simp [j2000] at hm
  · simp only [Option.some.injEq, Prod.mk.injEq] at hm
    rw [← hm.1]
    unfold Orthogonal
    ext i j
    fin_cases i <;> fin_cases j <;> simp [mat, rows, Matrix.mul_apply, Fin.sum_univ_three]
  · simp at hm
  · simp only [Option.some.injEq, Prod.mk.injEq] at hm
    rw [← hm.1]
    unfold Orthogonal
    ext i j
    fin_cases i <;> fin_cases j <;> simp [mat, rows, Matrix.mul_apply, Fin.sum_univ_three]

example : ∃ m1 m2, rotationNaif demoCtx 0 5 (-100) (-200) = some (.ok m1) ∧
    rotationNaif demoCtx 0 5 (-200) 10013 = some (.ok m2) := by
  have hA : frameToJ2000 demoCtx 0 5 (-100) = some (.ok (mat3Mul identity3 (rows 0 1 0 (-1) 0 0 0 0 1))) := rfl
  have hM : ∃ m, frameToJ2000 demoCtx 0 5 10013 = some (.ok m) := ⟨_, rfl⟩
  have hB : ∃ m, frameToJ2000 demoCtx 0 5 (-200) = some (.ok m) := ⟨_, rfl⟩
  obtain ⟨mM, hM⟩ := hM
  obtain ⟨mB, hB⟩ := hB
  obtain ⟨m1, h1, _⟩ := rotation_eq demo_matrices hA hB
  obtain ⟨m2, h2, _⟩ := rotation_eq demo_matrices hB hM
  exact ⟨m1, m2, h1, h2⟩

/-! ### C41 -/

/-- The frame that a frame's constant matrix refers to. -/
def relativeOf (c : Ctx) (id : Int) : Option Int :=
  if id = 1 then none
  else (frameById c id).bind (fun f => f.tk.bind (fun x => (frameByName c x.2).map (·.id)))

theorem frame_unfold (c : Ctx) (tdb : ℝ) (n : Nat) (id : Int) :
    frameToJ2000 c tdb (n + 1) id = none ↔ ∃ r, relativeOf c id = some r ∧ frameToJ2000 c tdb n r = none := by
  unfold relativeOf
  rw [frameToJ2000]
  split
  · simp
  · rcases frameById c id with _ | f
    · simp
    · simp only [Option.bind_some]
      rcases f.tk with _ | ⟨m, nm⟩
      · simp only [Option.bind_none]
        split <;> simp
      · simp only [Option.bind_some]
        rcases frameByName c nm with _ | rel
        · simp
        · simp only [Option.map_some, Option.some.injEq, exists_eq_left']
          rcases frameToJ2000 c tdb n rel.id with _ | (m | e | _) <;> simp

/-- Resolution of a frame runs forever exactly when the frame lies in a set of frames each of which refers
to another of the set. -/
theorem diverges_iff (c : Ctx) (tdb : ℝ) (id : Int) :
    (∀ n, frameToJ2000 c tdb n id = none) ↔
      ∃ s : Set Int, id ∈ s ∧ ∀ x ∈ s, ∃ r ∈ s, relativeOf c x = some r := by
  constructor
  · intro h
    refine ⟨{x | ∀ n, frameToJ2000 c tdb n x = none}, h, ?_⟩
    intro x hx
    obtain ⟨r, hr, _⟩ := (frame_unfold c tdb 0 x).mp (hx 1)
    refine ⟨r, ?_, hr⟩
    intro n
    obtain ⟨r', hr', h'⟩ := (frame_unfold c tdb n x).mp (hx (n + 1))
    rw [hr] at hr'
    simp only [Option.some.injEq] at hr'
    subst hr'
    exact h'
  · rintro ⟨s, hid, hs⟩ n
    induction n generalizing id with
    | zero => rfl
    | succ n ih =>
      obtain ⟨r, hr, hrel⟩ := hs id hid
      exact (frame_unfold c tdb n id).mpr ⟨r, hrel, ih r hr⟩

/-- If references do not go in circles (each goes to a frame of lower rank), every query returns a rotation
or an error, or panics on a body without constants. -/
theorem resolution_terminates_partial (c : Ctx) (tdb : ℝ) (rank : Int → Nat)
    (h : ∀ x r, relativeOf c x = some r → rank r < rank x) (a b : Int) : ∃ n r, rotationNaif c tdb n a b = some r := by
  have hone : ∀ k id, rank id < k → ∃ r, frameToJ2000 c tdb k id = some r := by
    intro k
    induction k with
    | zero => intro id hk; omega
    | succ k ih =>
      intro id hk
      rcases hf : frameToJ2000 c tdb (k + 1) id with _ | r
      · obtain ⟨r, hr, hn⟩ := (frame_unfold c tdb k id).mp hf
        have := h id r hr
        obtain ⟨x, hx⟩ := ih r (by omega)
        rw [hx] at hn
        simp at hn
      · exact ⟨r, rfl⟩
  obtain ⟨ra, hra⟩ := hone (max (rank a) (rank b) + 1) a (by omega)
  obtain ⟨rb, hrb⟩ := hone (max (rank a) (rank b) + 1) b (by omega)
  refine ⟨max (rank a) (rank b) + 1, ?_⟩
  unfold rotationNaif
  rw [hra, hrb]
  split
  · exact ⟨_, rfl⟩
  · rcases ra with m | e | _
    · rcases rb with m | e | _ <;> exact ⟨_, rfl⟩
    · exact ⟨_, rfl⟩
    · exact ⟨_, rfl⟩

example : ∀ x r, relativeOf demoCtx x = some r →
    (fun i : Int => if i = 1 then 0 else if i = 10013 then 1 else 2) r <
    (fun i : Int => if i = 1 then 0 else if i = 10013 then 1 else 2) x := by
  intro x r h
  unfold relativeOf at h
  split at h
  · simp at h
  · rcases hf : frameById demoCtx x with _ | f
    · rw [hf] at h
      simp at h
    · rw [hf, Option.bind_some] at h
      obtain ⟨hm, rfl⟩ := frameById_mem hf
      simp only [demoCtx, List.mem_cons, List.not_mem_nil, or_false] at hm
      rcases hm with rfl | rfl | rfl | rfl
      · simp [j2000] at h
      · rw [Option.bind_some] at h
        have : (frameByName demoCtx "j2000".toList).map (·.id) = some 1 := rfl
        rw [this] at h
        simp only [Option.some.injEq] at h
        subst h
        decide
      · simp at h
      · rw [Option.bind_some] at h
        have : (frameByName demoCtx "IAU_MARS".toList).map (·.id) = some 10013 := rfl
        rw [this] at h
        simp only [Option.some.injEq] at h
        subst h
        decide

/-- Disagreement: two frames defined relative to each other; the query never returns. -/
theorem cyclic_frames_diverge (m m' : M3) (tdb : ℝ) (n : Nat) :
    rotationNaif ⟨[j2000, ⟨-1, "A".toList, .twoVector, -1, some (m, "B".toList)⟩,
      ⟨-2, "B".toList, .twoVector, -2, some (m', "A".toList)⟩], []⟩ tdb n (-1) 1 = none := by
  have := (diverges_iff ⟨[j2000, ⟨-1, "A".toList, .twoVector, -1, some (m, "B".toList)⟩,
      ⟨-2, "B".toList, .twoVector, -2, some (m', "A".toList)⟩], []⟩ tdb (-1)).mpr
    ⟨{-1, -2}, by simp, by
      intro x hx
      simp only [Set.mem_insert_iff, Set.mem_singleton_iff] at hx
      rcases hx with rfl | rfl
      · exact ⟨-2, by simp, rfl⟩
      · exact ⟨-1, by simp, rfl⟩⟩ n
  unfold rotationNaif
  rw [this]
  simp

/-- Disagreement: a constants file that gives only the radii of a body makes the query of its frame panic,
even if an earlier file has the orientation. -/
theorem radii_only_panics (o : Body) (tdb : ℝ) :
    rotationNaif ⟨[j2000, ⟨10013, "IAU_MARS".toList, .pck, 499, none⟩],
      [fun _ => some o, fun i => if i = 499 then some ⟨[], [], []⟩ else none]⟩ tdb 3 10013 1 = some .panic := rfl

/-- Without such bodies a query does not panic. -/
theorem no_panic {c : Ctx} (h : ∀ p ∈ c.pcks, ∀ i b, p i = some b → b.poleRa ≠ [] ∧ b.poleDec ≠ [] ∧ b.pm ≠ [])
    (tdb : ℝ) (n : Nat) (a b : Int) : rotationNaif c tdb n a b ≠ some .panic := by
  have hb : ∀ body, iauBodyRotation c body tdb ≠ .panic := by
    intro body
    unfold iauBodyRotation
    have hr : ∀ p ∈ c.pcks.reverse, ∀ i b, p i = some b → b.poleRa ≠ [] ∧ b.poleDec ≠ [] ∧ b.pm ≠ [] :=
      fun p hp => h p (List.mem_reverse.mp hp)
    generalize c.pcks.reverse = l at hr
    induction l with
    | nil => simp [bodyLoop]
    | cons p rest ih =>
      unfold bodyLoop
      split
      · rename_i o ho
        obtain ⟨h1, h2, h3⟩ := hr p (by simp) body o ho
        obtain ⟨m, hm, _⟩ := body_rotation_partial o tdb h1 h2 h3
        rw [hm]
        simp
      · exact ih (fun q hq => hr q (by simp [hq]))
  have hf : ∀ n id, frameToJ2000 c tdb n id ≠ some .panic := by
    intro n
    induction n with
    | zero => intro id; simp [frameToJ2000]
    | succ n ih =>
      intro id
      rw [frameToJ2000]
      split
      · simp
      · split
        · simp
        · split
          · split
            · simp
            · rename_i rel _
              have := ih rel.id
              rcases hr : frameToJ2000 c tdb n rel.id with _ | (m | e | _)
              · simp
              · simp
              · simp
              · exact absurd hr this
          · split
            · simpa using hb _
            · simp
  unfold rotationNaif
  split
  · simp
  · split
    · simp
    · rename_i hp; exact absurd hp (hf _ _)
    · simp
    · split
      · simp
      · rename_i hp; exact absurd hp (hf _ _)
      · simp
      · simp

/-! ### C64: hash map order -/

/-- The field a constant's name selects. -/
def lens (s : Str) : Option (List F64 → RawBody → RawBody) :=
  if s = "POLE_RA".toList then some (fun x b => { b with poleRa := x })
  else if s = "POLE_DEC".toList then some (fun x b => { b with poleDec := x })
  else if s = "PM".toList then some (fun x b => { b with pm := x })
  else if s = "RADII".toList then some (fun x b => { b with radii := some x })
  else none

/-- The value that goes there. -/
def fieldValue (s : Str) (v : TextValue) : R (List F64) :=
  if s = "RADII".toList then parseRadii v else valueAsArray v

theorem setField_eq (s : Str) (v : TextValue) (b : RawBody) :
    setField s v b = match lens s with
      | none => .ok b
      | some l => (fieldValue s v).map (fun x => l x b) := by
  unfold setField lens fieldValue
  by_cases h1 : s = "POLE_RA".toList
  · subst h1; rfl
  · by_cases h2 : s = "POLE_DEC".toList
    · subst h2; rfl
    · by_cases h3 : s = "PM".toList
      · subst h3; rfl
      · by_cases h4 : s = "RADII".toList
        · subst h4; rfl
        · simp only [h1, h2, h3, h4, if_false]

theorem lens_comm {s s' : Str} (hne : s ≠ s') {l l' : List F64 → RawBody → RawBody} (h : lens s = some l)
    (h' : lens s' = some l') (x x' : List F64) (b : RawBody) : l x (l' x' b) = l' x' (l x b) := by
  unfold lens at h h'
  split_ifs at h h' with a1 a2 a3 a4 a5 a6 a7 a8
  all_goals
    simp only [Option.some.injEq] at h h'
    subst h h'
    first
      | rfl
      | (exfalso; apply hne; simp_all; done)

theorem setField_comm {s s' : Str} (hne : s ≠ s') (v v' : TextValue) (b : RawBody) :
    (setField s v b).bind (setField s' v') = (setField s' v' b).bind (setField s v) := by
  have e : ∀ (t : Str) (w : TextValue) (c : RawBody), setField t w c = match lens t with
      | none => .ok c
      | some l => (fieldValue t w).map (fun x => l x c) := setField_eq
  rw [e s v b, e s' v' b]
  rcases h : lens s with _ | l
  · rcases h' : lens s' with _ | l'
    · simp only [Except.bind]
      rw [e, e, h, h']
    · simp only [Except.bind]
      rw [e, h']
      rcases fieldValue s' v' with ⟨⟩ | y
      · rfl
      · simp only [Except.map]
        rw [e, h]
  · rcases h' : lens s' with _ | l'
    · simp only [Except.bind]
      rw [e, h]
      rcases fieldValue s v with ⟨⟩ | y
      · rfl
      · simp only [Except.map]
        rw [e, h']
    · simp only
      rcases hx : fieldValue s v with ⟨⟩ | x <;> rcases hy : fieldValue s' v' with ⟨⟩ | y
      · rfl
      · simp only [Except.map, Except.bind]
        rw [e, h]
        simp only [hx]
        rfl
      · simp only [Except.map, Except.bind]
        rw [e, h']
        simp only [hy]
        rfl
      · simp only [Except.map, Except.bind]
        rw [e, e, h, h', hx, hy]
        simp only [Except.map]
        rw [lens_comm hne h h' x y b]

theorem pckStep_comm {a b : Str × TextValue} (h : bodyKey a.1 = none ∨ bodyKey a.1 ≠ bodyKey b.1)
    (s : Int → Option RawBody) :
    (pckStep s a).bind (fun s => pckStep s b) = (pckStep s b).bind (fun s => pckStep s a) := by
  unfold pckStep
  rcases ha : bodyKey a.1 with _ | ⟨i, f⟩
  · rcases bodyKey b.1 with _ | ⟨j, g⟩
    · rfl
    · simp only [Except.bind]
      rcases setField g b.2 ((s j).getD .empty) with ⟨⟩ | x <;> rfl
  · rcases hb : bodyKey b.1 with _ | ⟨j, g⟩
    · simp only [Except.bind]
      rcases setField f a.2 ((s i).getD .empty) with ⟨⟩ | x <;> rfl
    · rw [ha, hb] at h
      simp only [reduceCtorEq, ne_eq, Option.some.injEq, Prod.mk.injEq, false_or, not_and] at h
      by_cases hij : i = j
      · subst hij
        have hfg : f ≠ g := h rfl
        have hc := setField_comm hfg a.2 b.2 ((s i).getD .empty)
        rcases h1 : setField f a.2 ((s i).getD .empty) with ⟨⟩ | x <;>
          rcases h2 : setField g b.2 ((s i).getD .empty) with ⟨⟩ | y <;>
          rw [h1, h2] at hc <;>
          simp only [Except.bind, Except.map, if_true, Option.getD_some, h1, h2] at hc ⊢
        · rw [← hc]
        · rw [hc]
        · rw [hc]
          rcases setField f a.2 y with ⟨⟩ | z
          · rfl
          · simp only [Except.ok.injEq]
            funext k
            by_cases hk : k = i <;> simp [hk]
      · have hji : j ≠ i := fun h => hij h.symm
        rcases h1 : setField f a.2 ((s i).getD .empty) with ⟨⟩ | x <;>
          rcases h2 : setField g b.2 ((s j).getD .empty) with ⟨⟩ | y <;>
          simp only [Except.bind, Except.map, if_neg hij, if_neg hji, h1, h2]
        simp only [Except.ok.injEq]
        funext k
        by_cases hk : k = i
        · subst hk; simp [hij]
        · simp [hk]

theorem pckFold_cons (kv : Str × TextValue) (l : List (Str × TextValue)) (s : Int → Option RawBody) :
    pckFold (kv :: l) s = (pckStep s kv).bind (fun s => pckFold l s) := by
  rw [pckFold]
  rcases pckStep s kv with ⟨⟩ | x <;> rfl

/-- No two variables name the same constant of the same body. -/
def DistinctConstants (l : List (Str × TextValue)) : Prop :=
  l.Pairwise (fun a b => (bodyKey a.1 = none ∨ bodyKey a.1 ≠ bodyKey b.1) ∧ (bodyKey b.1 = none ∨ bodyKey b.1 ≠ bodyKey a.1))

/-- The constants read from a file do not depend on the order in which the hash map yields the variables. -/
theorem pck_order_irrelevant {l l' : List (Str × TextValue)} (h : l.Perm l') (hd : DistinctConstants l)
    (s : Int → Option RawBody) : pckFold l s = pckFold l' s := by
  induction h generalizing s with
  | nil => rfl
  | cons x hp ih =>
    rw [pckFold_cons, pckFold_cons]
    unfold DistinctConstants at hd
    rw [List.pairwise_cons] at hd
    congr 1
    funext s
    exact ih hd.2 s
  | swap x y l =>
    unfold DistinctConstants at hd
    rw [List.pairwise_cons] at hd
    have hc := pckStep_comm (hd.1 x (by simp)).1 s
    have e : ∀ u v : Str × TextValue, pckFold (u :: v :: l) s =
        ((pckStep s u).bind (fun s => pckStep s v)).bind (fun s => pckFold l s) := by
      intro u v
      rw [pckFold_cons]
      rcases pckStep s u with ⟨⟩ | z
      · rfl
      · simp only [Except.bind]
        rw [pckFold_cons]
        rfl
    rw [e, e, hc]
  | trans h1 h2 ih1 ih2 =>
    have hd2 : DistinctConstants _ := (h1.pairwise_iff (fun {a b} hab => ⟨hab.2, hab.1⟩)).mp hd
    rw [ih1 hd s, ih2 hd2 s]

example : DistinctConstants [("BODY499_PM".toList, .int 1), ("BODY499_POLE_RA".toList, .int 2),
    ("BODY399_PM".toList, .int 3), ("X".toList, .int 4), ("Y".toList, .int 5)] := by
  unfold DistinctConstants
  decide +kernel
example : (pckFold [("BODY499_PM".toList, .int 1), ("BODY499_RADII".toList, .array [.int 2, .int 3])] (fun _ => none)).toOption.bind
    (fun f => f 499) = some ⟨[], [], [.num 1], some [.num 2, .num 2, .num 3]⟩ := by decide +kernel

/-- Disagreement in a corner: the same body written with different digits. Which value counts depends on
the hash map. -/
theorem alias_order_matters :
    (pckFold [("BODY499_PM".toList, .int 1), ("BODY0499_PM".toList, .int 2)] (fun _ => none)).toOption.bind (fun f => f 499) ≠
    (pckFold [("BODY0499_PM".toList, .int 2), ("BODY499_PM".toList, .int 1)] (fun _ => none)).toOption.bind (fun f => f 499) := by
  decide +kernel

end Verif.Frames.Props
