import Mathlib.Data.Real.Basic
import Mathlib.Algebra.Order.Floor.Ring
import Mathlib.Algebra.Order.Archimedean.Real.Basic
import Mathlib.Data.Fin.VecNotation
import Mathlib.Algebra.BigOperators.Fin

/-
The check of a state-transition matrix against propagated differences
(src/pod/propagation/validation.rs 66-147). Components are exact numbers or not a number (`none`); infinities are
left out. The two propagators of the external crate `principia` are parameters. `dt` and `step` are finite.
-/
namespace Verif.StmCheck

/-- A component: a number, or NaN. -/
abbrev V := Option ℝ
abbrev State := Fin 6 → V

def add : V → V → V
  | some a, some b => some (a + b)
  | _, _ => none

def sub : V → V → V
  | some a, some b => some (a - b)
  | _, _ => none

def mul : V → V → V
  | some a, some b => some (a * b)
  | _, _ => none

/-- `perturb_state` (validation.rs 118-134). -/
def perturb (s : State) (d : Fin 6 → V) : State := fun i => add (s i) (d i)

/-- `phi_apply` (validation.rs 136-147): the sum runs over the columns in order, starting at zero. -/
def phiApply (phi : Fin 6 → Fin 6 → V) (d : Fin 6 → V) : State := fun i =>
  (List.finRange 6).foldl (fun s j => add s (mul (phi i j) (d j))) (some 0)

/-- `fold(0.0, f64::max)` over absolute values, then `max(1e-30)`: `f64::max` passes over a NaN
(validation.rs 94-98). -/
noncomputable def scale (actual : State) : ℝ :=
  max ((List.finRange 6).foldl (fun m i => match actual i with
    | some x => max m |x|
    | none => m) 0) (1e-30)

/-- The loop of validation.rs 93-104: `r > max` is false for a NaN. -/
noncomputable def worst (actual predicted : State) : ℝ :=
  (List.finRange 6).foldl (fun m i => match sub (actual i) (predicted i) with
    | some d => if m < |d| / scale actual then |d| / scale actual else m
    | none => m) 0

/-- `n_steps` (validation.rs 74-75). -/
noncomputable def steps (dt step : ℝ) : ℕ := (max ⌈|dt| / max |step| (1e-12)⌉ 1).toNat

/-- `h` (validation.rs 76). -/
noncomputable def substep (dt step : ℝ) : ℝ := dt / steps dt step

/-- `max_rel_stm_predict_error` (validation.rs 66-106). -/
noncomputable def check {E : Type} (stm : State → ℝ → Except E (State × (Fin 6 → Fin 6 → V)))
    (rk4 : State → ℝ → ℝ → Except E State) (state : State) (dt step : ℝ) (d : Fin 6 → V) : Except E ℝ :=
  match stm state dt with
  | .error e => .error e
  | .ok (_, phi) =>
    match rk4 state (substep dt step) dt with
    | .error e => .error e
    | .ok nominal =>
      match rk4 (perturb state d) (substep dt step) dt with
      | .error e => .error e
      | .ok perturbed => .ok (worst (fun i => sub (perturbed i) (nominal i)) (phiApply phi d))

end Verif.StmCheck
