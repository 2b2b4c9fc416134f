import Verif.Text.Model
import Mathlib.Data.Real.Archimedean
import Mathlib.Data.String.Basic
import Mathlib.Algebra.Order.Floor.Ring
import Mathlib.Data.Fin.VecNotation

/-!
# Assembling a force model, and checks of covariances and transition matrices

Model of `src/pod/force/registry.rs`, `src/pod/force/config.rs`, `src/pod/problem/covariance.rs`,
`src/pod/problem/parameter.rs` 83-96 and `src/pod/propagation/validation.rs`.

Numbers that are only passed on are of any type `N`. The force models themselves are in
`Verif.Forces`; here a force model is the name of its family with its parameters. Models made by
factories registered by the user are of any type `F`, into which the built-in ones embed. The sum
formed by `CompositeModel` and the integrators belong to `principia`.
-/

namespace Verif.Assembly

open Verif.Text

/-! ## Registry -/

/-- `PeriodicHarmonic` (empirical_periodic.rs). -/
inductive Harmonic
  | once | twice
  deriving DecidableEq

/-- `ShadowModel`. -/
inductive Shadow
  | none | cylindrical | conical
  deriving DecidableEq

/-- `ForceModelParams` (registry.rs:52-102). -/
inductive Params (N : Type)
  | none
  | geopotential (degree order : Nat)
  | drag (cd areaToMass : N)
  | srp (cr areaToMass : N) (shadow : Shadow)
  | constant (radial transverse normal : N)
  | periodic (harmonic : Harmonic) (epoch period : N) (coeffs : Fin 6 → N)
  | custom (text : String)

/-- `ForceModelSpec` (registry.rs:113-119). -/
structure Spec (N : Type) where
  name : String
  params : Params N

/-- `PodDynamicsError`, the two made here; the explanatory text is left out. -/
inductive Err
  | unknownModel (name : String)
  | invalidParameters (name : String)
  deriving DecidableEq

/-- The models the built-in factories make. -/
inductive Force (N : Type)
  | twoBody
  | j2
  | geopotential (degree order : Nat)
  | thirdBody (sun moon : Bool)
  | drag (cd areaToMass : N)
  | srp (cr areaToMass : N) (shadow : Shadow)
  | relativity
  | constant (radial transverse normal : N)
  | periodic (harmonic : Harmonic) (epoch period rCos rSin tCos tSin nCos nSin : N)

/-- `ForceModelFactory` (registry.rs:140-149). -/
structure Factory (N F : Type) where
  name : String
  build : Params N → Except Err F

/-- The registry (registry.rs:156-158): a `BTreeMap`, as a list in order of the keys. -/
abbrev Registry (N F : Type) := List (String × Factory N F)

/-- `BTreeMap::insert`. -/
def insert {N F : Type} (k : String) (f : Factory N F) : Registry N F → Registry N F
  | [] => [(k, f)]
  | (k', f') :: r =>
    if k < k' then (k, f) :: (k', f') :: r
    else if k = k' then (k, f) :: r
    else (k', f') :: insert k f r

/-- `register` (registry.rs:205-207). -/
def register {N F : Type} (r : Registry N F) (f : Factory N F) : Registry N F := insert f.name f r

/-- `BTreeMap::get`. -/
def get {N F : Type} (r : Registry N F) (k : String) : Option (Factory N F) :=
  (r.find? (fun e => e.1 = k)).map Prod.snd

/-- `is_registered` (210-212) and `names` (215-217). -/
def isRegistered {N F : Type} (r : Registry N F) (k : String) : Bool := (get r k).isSome
def names {N F : Type} (r : Registry N F) : List String := r.map Prod.fst

/-- `build_one` (registry.rs:225-234). -/
def buildOne {N F : Type} (r : Registry N F) (s : Spec N) : Except Err F :=
  match get r s.name with
  | none => .error (.unknownModel s.name)
  | some f => f.build s.params

/-- The loop of `build` (registry.rs:252-261); `push` appends. -/
def buildLoop {N F : Type} (r : Registry N F) (out : List F) : List (Spec N) → Except Err (List F)
  | [] => .ok out
  | s :: specs =>
    match buildOne r s with
    | .error e => .error e
    | .ok f => buildLoop r (out ++ [f]) specs

/-- `build`. -/
def build {N F : Type} (r : Registry N F) (specs : List (Spec N)) : Except Err (List F) :=
  buildLoop r [] specs

/-- `build_periodic` (registry.rs:420-440). -/
def buildPeriodic {N F : Type} (emb : Force N → F) (expected : Harmonic) (label : String) :
    Params N → Except Err F
  | .periodic h e p c =>
    if h = expected then .ok (emb (.periodic h e p (c 0) (c 1) (c 2) (c 3) (c 4) (c 5)))
    else .error (.invalidParameters label)
  | _ => .error (.invalidParameters label)

/-- The built-in factories (registry.rs:266-460) in the order of `with_builtins` (188-201). -/
def builtinFactories {N F : Type} (emb : Force N → F) : List (Factory N F) :=
  [⟨"two_body", fun _ => .ok (emb .twoBody)⟩,
   ⟨"j2", fun _ => .ok (emb .j2)⟩,
   ⟨"geopotential", fun p => match p with
      | .geopotential d o => .ok (emb (.geopotential d o))
      | _ => .error (.invalidParameters "geopotential")⟩,
   ⟨"third_body_sun", fun _ => .ok (emb (.thirdBody true false))⟩,
   ⟨"third_body_moon", fun _ => .ok (emb (.thirdBody false true))⟩,
   ⟨"third_body_sun_moon", fun _ => .ok (emb (.thirdBody true true))⟩,
   ⟨"drag", fun p => match p with
      | .drag cd am => .ok (emb (.drag cd am))
      | _ => .error (.invalidParameters "drag")⟩,
   ⟨"srp_cannonball", fun p => match p with
      | .srp cr am sh => .ok (emb (.srp cr am sh))
      | _ => .error (.invalidParameters "srp_cannonball")⟩,
   ⟨"relativity", fun _ => .ok (emb .relativity)⟩,
   ⟨"empirical_constant", fun p => match p with
      | .constant r t n => .ok (emb (.constant r t n))
      | _ => .error (.invalidParameters "empirical_constant")⟩,
   ⟨"empirical_1cpr", buildPeriodic emb .once "empirical_1cpr"⟩,
   ⟨"empirical_2cpr", buildPeriodic emb .twice "empirical_2cpr"⟩]

/-- `with_builtins` (registry.rs:187-202). -/
def withBuiltins {N F : Type} (emb : Force N → F) : Registry N F :=
  (builtinFactories emb).foldl register []

/-! ## Configuration -/

/-- `ForceModelConfig` (config.rs:36-64). -/
structure Config (N : Type) where
  twoBody : Bool := true
  j2 : Bool := true
  harmonics : Option (Nat × Nat) := none
  thirdBodySun : Bool := false
  thirdBodyMoon : Bool := false
  drag : Option (N × N) := none
  srp : Option (N × N × Shadow) := none
  relativity : Bool := false
  constant : Option (N × N × N) := none
  once : Option (N × N × (Fin 6 → N)) := none
  twice : Option (N × N × (Fin 6 → N)) := none

/-- One `if` of `to_specs`: push when the flag is set. -/
def flag {N : Type} (b : Bool) (name : String) : List (Spec N) :=
  if b then [⟨name, .none⟩] else []

/-- One `if let` of `to_specs`: push when the option is set. -/
def option {N A : Type} (o : Option A) (name : String) (f : A → Params N) : List (Spec N) :=
  match o with
  | some a => [⟨name, f a⟩]
  | none => []

/-- `to_specs` (config.rs:101-179). -/
def toSpecs {N : Type} (c : Config N) : List (Spec N) :=
  flag c.twoBody "two_body" ++ (flag c.j2 "j2"
    ++ (option c.harmonics "geopotential" (fun x => .geopotential x.1 x.2)
    ++ (flag c.thirdBodySun "third_body_sun" ++ (flag c.thirdBodyMoon "third_body_moon"
    ++ (option c.drag "drag" (fun x => .drag x.1 x.2)
    ++ (option c.srp "srp_cannonball" (fun x => .srp x.1 x.2.1 x.2.2)
    ++ (flag c.relativity "relativity"
    ++ (option c.constant "empirical_constant" (fun x => .constant x.1 x.2.1 x.2.2)
    ++ (option c.once "empirical_1cpr" (fun x => .periodic .once x.1 x.2.1 x.2.2)
    ++ option c.twice "empirical_2cpr" (fun x => .periodic .twice x.1 x.2.1 x.2.2))))))))))

/-! ## Covariances -/

/-- Subtraction, absolute value and comparison of `f64` (no rounding). -/
def fsub : F64 → F64 → F64
  | .num a, .num b => .num (a - b)
  | .inf s, .num _ => .inf s
  | .num _, .inf s => .inf (!s)
  | .inf s, .inf t => if s = t then .nan else .inf s
  | _, _ => .nan
def fabs : F64 → F64
  | .num a => .num |a|
  | .inf _ => .inf false
  | .nan => .nan
def flt : F64 → F64 → Bool
  | .num a, .num b => decide (a < b)
  | .inf true, .num _ => true
  | .num _, .inf false => true
  | .inf true, .inf false => true
  | _, _ => false

/-- `CovarianceError` (covariance.rs:29-58). -/
inductive CovErr
  | dimension (expected actual : Nat)
  | notSymmetric (i j : Nat) (delta tol : F64)
  | notPsdDiagonal (i : Nat) (value : F64)
  deriving DecidableEq

/-- `validate_dim` (covariance.rs:67-77). -/
def validateDim (n : Nat) (data : List F64) : Except CovErr Unit :=
  if data.length = n * n then .ok () else .error (.dimension n data.length)

/-- Index expression, `none` where the code would panic. -/
def at? (data : List F64) (k : Nat) : Option F64 := data[k]?

/-- The inner step of `validate_symmetric` (85-90): `none` is a panic. -/
def symStep (n : Nat) (data : List F64) (tol : F64) (i j : Nat) : Option (Except CovErr Unit) :=
  (at? data (i * n + j)).bind fun a => (at? data (j * n + i)).map fun b =>
    if flt tol (fabs (fsub a b)) then .error (.notSymmetric i j (fabs (fsub a b)) tol) else .ok ()

/-- A `for` loop that returns at the first error. -/
def forEach {α : Type} (f : α → Option (Except CovErr Unit)) : List α → Option (Except CovErr Unit)
  | [] => some (.ok ())
  | a :: as =>
    match f a with
    | some (.ok ()) => forEach f as
    | r => r

/-- The pairs of the two loops (83-84): `for i in 0..n { for j in (i+1)..n {`. -/
def pairs (n : Nat) : List (Nat × Nat) :=
  (List.range n).flatMap fun i => ((List.range n).filter (fun j => i < j)).map fun j => (i, j)

/-- `validate_symmetric` (covariance.rs:80-94). -/
def validateSymmetric (n : Nat) (data : List F64) (tol : F64) : Option (Except CovErr Unit) :=
  match validateDim n data with
  | .error e => some (.error e)
  | .ok () => forEach (fun p => symStep n data tol p.1 p.2) (pairs n)

/-- `validate_diagonal_nonneg` (covariance.rs:98-108). -/
def validateDiagonal (n : Nat) (data : List F64) : Option (Except CovErr Unit) :=
  match validateDim n data with
  | .error e => some (.error e)
  | .ok () => forEach (fun i => (at? data (i * n + i)).map fun v =>
      if flt v (.num 0) then .error (.notPsdDiagonal i v) else .ok ()) (List.range n)

/-- `ParameterOrdering::index_of` (parameter.rs:93-95). -/
def indexOf {κ : Type} [DecidableEq κ] (params : List κ) (k : κ) : Option Nat :=
  params.findIdx? (fun p => p = k)

/-! ## Transition matrices -/

/-- The number of steps and the step of `max_rel_stm_predict_error` (validation.rs:74-77). -/
noncomputable def stepCount (dt step : ℝ) : ℕ := max ⌈|dt| / max |step| (10 ^ (-12 : ℤ))⌉₊ 1
noncomputable def stepSize (dt step : ℝ) : ℝ := dt / stepCount dt step

/-- The scale (98-102): the largest component, at least 1e-30. -/
noncomputable def scale (actual : Fin 6 → ℝ) : ℝ :=
  max ([0, 1, 2, 3, 4, 5].foldl (fun m i => max m |actual i|) 0) (10 ^ (-30 : ℤ))

/-- `phi_apply` (validation.rs:141-151). -/
def phiApply (phi : Fin 6 → Fin 6 → ℝ) (d : Fin 6 → ℝ) (i : Fin 6) : ℝ :=
  [0, 1, 2, 3, 4, 5].foldl (fun s j => s + phi i j * d j) 0

/-- The error (85-109) of a transition matrix; `flow` is the numerical propagation of a state vector. -/
noncomputable def predictError (flow : (Fin 6 → ℝ) → Fin 6 → ℝ) (phi : Fin 6 → Fin 6 → ℝ)
    (y d : Fin 6 → ℝ) : ℝ :=
  let actual := fun i => flow (fun k => y k + d k) i - flow y i
  let predicted := phiApply phi d
  ([0, 1, 2, 3, 4, 5] : List (Fin 6)).foldl
    (fun m i => if m < |actual i - predicted i| / scale actual then |actual i - predicted i| / scale actual else m) 0

end Verif.Assembly
