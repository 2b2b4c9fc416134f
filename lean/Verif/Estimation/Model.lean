import Mathlib.LinearAlgebra.Matrix.PosDef
import Mathlib.Analysis.SpecialFunctions.Pow.Real

/-
Model of the estimation layer: `/repo/src/pod/estimation/wls.rs`, `sequential.rs`, `nonlinear.rs`.

Real numbers; a number that is not finite is `none` (it absorbs in products and sums; overflow of finite numbers is
left out). The factorisation of the crate `faer` is a parameter (`Cholesky`). Indexing a `faer` matrix outside its
bounds panics. A state covariance of `affn` is a 6×6 matrix; that it is stored in blocks, the diagonal ones by
their upper triangles, does not matter for symmetric matrices.
-/
namespace Verif.Estimation
open Matrix

/-! ### Normal equations -/

/-- A 64-bit float: `none` is an infinity or NaN. -/
abbrev Val := Option ℝ

/-- wls.rs 40-56; `panic` is a panic. -/
inductive Failure where
  | sigma | residual | invalidIndex (i : Nat) | partialValue (i : Nat) | notPositiveDefinite | panic

/-- wls.rs 67-77. The entries outside `n` do not exist. -/
structure Normal where
  n : Nat
  matrix : Nat → Nat → Val
  b : Nat → ℝ
  chi2 : ℝ
  obs : Nat

/-- wls.rs 81-89. -/
def Normal.new (n : Nat) : Normal := ⟨n, fun _ _ => some 0, fun _ => 0, 0, 0⟩

/-- `self.n_matrix[(i, j)] += v`. -/
def Normal.addAt (s : Normal) (i j : Nat) (v : Val) : Normal :=
  { s with matrix := fun k l => if k = i ∧ l = j then (s.matrix k l).bind fun x => v.map (x + ·) else s.matrix k l }

/-- `self.b[(i, 0)] += v`. -/
def Normal.addB (s : Normal) (i : Nat) (v : ℝ) : Normal :=
  { s with b := fun k => if k = i then s.b k + v else s.b k }

/-- wls.rs 140-145, the inner loop; `c` is `w * hi`. -/
def innerLoop (i : Nat) (c : ℝ) : List (Nat × Val) → Normal → Normal × Option Failure
  | [], s => (s, none)
  | (j, hj) :: t, s =>
    if j < i then innerLoop i c t s
    else if i < s.n ∧ j < s.n then innerLoop i c t (s.addAt i j (hj.map (c * ·)))
    else (s, some .panic)

/-- wls.rs 126-146, the outer loop; `all` is the whole row. -/
def outerLoop (w r : ℝ) (all : List (Nat × Val)) : List (Nat × Val) → Normal → Normal × Option Failure
  | [], s => (s, none)
  | (i, hi) :: t, s =>
    if s.n ≤ i then (s, some (.invalidIndex i))
    else match hi with
      | none => (s, some (.partialValue i))
      | some h =>
        match innerLoop i (w * h) all (s.addB i (w * h * r)) with
        | (s', none) => outerLoop w r all t s'
        | (s', some f) => (s', some f)

/-- wls.rs 109-150: the accumulator after the call, and what the call returned. -/
noncomputable def Normal.addRow (s : Normal) (partials : List (Nat × Val)) (residual sigma : Val) :
    Normal × Option Failure :=
  match sigma with
  | none => (s, some .sigma)
  | some σ =>
    if σ ≤ 0 then (s, some .sigma)
    else match residual with
      | none => (s, some .residual)
      | some r =>
        let w := 1 / (σ * σ)
        match outerLoop w r partials partials s with
        | (s', none) => ({ s' with chi2 := s'.chi2 + w * r * r, obs := s'.obs + 1 }, none)
        | (s', some f) => (s', some f)

/-- `faer`'s `llt` (only the lower triangle is read, so the matrix is the symmetrised one) and `solve`. -/
structure Cholesky where
  factor : (n : Nat) → (Fin n → Fin n → Val) → Option ((Fin n → ℝ) → Fin n → ℝ)

/-- wls.rs 200-211. -/
structure WlsResult where
  n : Nat
  update : Fin n → ℝ
  covariance : Fin n → Fin n → ℝ
  chi2 : ℝ
  obs : Nat

/-- wls.rs 155-161: the upper triangle copied to the lower one. -/
def Normal.symmetrised (s : Normal) (i j : Fin s.n) : Val :=
  if i ≤ j then s.matrix i j else s.matrix j i

/-- wls.rs 153-195. -/
noncomputable def Normal.solve (c : Cholesky) (s : Normal) : Except Failure WlsResult :=
  match c.factor s.n s.symmetrised with
  | none => .error .notPositiveDefinite
  | some f =>
    .ok ⟨s.n, f fun i => s.b i, fun i j => f (fun k => if k = j then 1 else 0) i, s.chi2, s.obs⟩

/-- wls.rs 215-218. -/
noncomputable def WlsResult.reducedChi2 (r : WlsResult) : ℝ := r.chi2 / ((max (r.obs - r.n) 1 : Nat) : ℝ)

/-! ### Sequential filter -/

/-- Position and velocity, and their covariance. -/
abbrev Vec6 := Fin 6 → ℝ
abbrev Mat6 := Matrix (Fin 6) (Fin 6) ℝ

/-- sequential.rs 73-76, without the epoch. -/
structure Ekf where
  state : Vec6
  cov : Mat6

/-- sequential.rs 118-139. -/
def Ekf.predict (f : Ekf) (next : Vec6) (phi : Mat6) (q : Option Mat6) : Ekf :=
  let p := phi * f.cov * phiᵀ
  ⟨next, match q with
    | none => p
    | some q => p + q⟩

/-- sequential.rs 39-48. -/
inductive EkfError where
  | invalid | singular (s : ℝ)

/-- sequential.rs 52-59. -/
structure Innovation where
  innovation : ℝ
  variance : ℝ
  nis : ℝ

/-- sequential.rs 215-221. -/
noncomputable def symmetrise (p : Mat6) : Mat6 := fun i j =>
  if i = j then p i j else if i < j then 0.5 * (p i j + p j i) else 0.5 * (p j i + p i j)

/-- sequential.rs 149-231 for finite numbers. -/
noncomputable def Ekf.updateScalar (f : Ekf) (h : Vec6) (innovation r : ℝ) : Except EkfError (Ekf × Innovation) :=
  if r < 0 then .error .invalid
  else
    let ph := f.cov *ᵥ h
    let s := r + h ⬝ᵥ ph
    if s ≤ 0 then .error (.singular s)
    else
      let k : Vec6 := fun i => ph i / s
      let ikh : Mat6 := 1 - vecMulVec k h
      let next := ikh * f.cov * ikhᵀ + r • vecMulVec k k
      .ok (⟨f.state + innovation • k, symmetrise next⟩, ⟨innovation, s, innovation * innovation / s⟩)

/-! ### Gauss–Newton -/

/-- nonlinear.rs 39-46. -/
structure Options where
  maxIter : Nat
  tolRel : ℝ
  tolChi2 : ℝ

/-- nonlinear.rs 60-67 (`setup`: the checks before the loop and the dimension check). -/
inductive NonlinearError where
  | setup | solver (f : Failure) | didNotConverge

/-- nonlinear.rs 71-78. -/
structure Report where
  parameters : List ℝ
  last : WlsResult
  iterations : Nat

/-- nonlinear.rs 140-147: relative size of an update, and the moved parameters. -/
noncomputable def relUpdate (params : List ℝ) (r : WlsResult) : ℝ :=
  (List.finRange r.n).foldl (fun m i =>
    let rel := |r.update i| / max |params.getD i 0| 1
    if rel > m then rel else m) 0
noncomputable def moved (params : List ℝ) (r : WlsResult) : List ℝ :=
  params.mapIdx fun i p => if h : i < r.n then p + r.update ⟨i, h⟩ else p

/-- nonlinear.rs 149-153, `none` being infinity. -/
noncomputable def chi2Change (last : Option ℝ) (chi2 : ℝ) : Option ℝ :=
  match last with
  | none => none
  | some l => if 0 < l then some (|chi2 - l| / l) else none

/-- nonlinear.rs 156, the second comparison. -/
noncomputable def below (x : Option ℝ) (tol : ℝ) : Bool :=
  match x with
  | none => false
  | some x => decide (x < tol)

/-- nonlinear.rs 129-164; `fuel` iterations are left after `it`. -/
noncomputable def gnLoop (c : Cholesky) (opts : Options) (assemble : List ℝ → Except NonlinearError Normal) :
    Nat → Nat → List ℝ → Option ℝ → Except NonlinearError Report
  | 0, _, _, _ => .error .didNotConverge
  | fuel + 1, it, params, last =>
    match assemble params with
    | .error e => .error e
    | .ok ne =>
      if ne.n ≠ params.length then .error .setup
      else match ne.solve c with
        | .error e => .error (.solver e)
        | .ok r =>
          let rel := relUpdate params r
          let params' := moved params r
          let chi2 := r.reducedChi2
          if rel < opts.tolRel ∧ below (chi2Change last chi2) opts.tolChi2 = true then .ok ⟨params', r, it + 1⟩
          else gnLoop c opts assemble fuel (it + 1) params' (some chi2)

/-- nonlinear.rs 93-165. -/
noncomputable def gaussNewton (c : Cholesky) (initial : List ℝ) (opts : Options)
    (assemble : List ℝ → Except NonlinearError Normal) : Except NonlinearError Report :=
  if opts.maxIter = 0 then .error .setup
  else if opts.tolRel < 0 then .error .setup
  else if opts.tolChi2 < 0 then .error .setup
  else gnLoop c opts assemble opts.maxIter 0 initial none

end Verif.Estimation
