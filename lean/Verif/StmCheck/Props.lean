import Verif.StmCheck.Model
import Mathlib.Tactic.Linarith
import Mathlib.Tactic.NormNum
import Mathlib.Tactic.Positivity
import Mathlib.Tactic.FieldSimp
import Mathlib.Tactic.FinCases

/-
C222: what the reported error of a state-transition matrix says.
-/
namespace Verif.StmCheck

/-- Numbers seen as components. -/
def num (x : Fin 6 → ℝ) : State := fun i => some (x i)

/-- The prediction of a matrix of numbers. -/
theorem phiApply_num (phi : Fin 6 → Fin 6 → ℝ) (d : Fin 6 → ℝ) :
    phiApply (fun i j => some (phi i j)) (num d) = num fun i => ∑ j, phi i j * d j := by
  funext i
  have : ∀ (l : List (Fin 6)) (s : ℝ),
      l.foldl (fun s j => add s (mul (some (phi i j)) (num d j))) (some s)
        = some (s + (l.map fun j => phi i j * d j).sum) := by
    intro l
    induction l with
    | nil => intro s; simp
    | cons j l ih =>
      intro s
      rw [List.foldl_cons]
      show l.foldl _ (some (s + phi i j * d j)) = _
      rw [ih, List.map_cons, List.sum_cons, add_assoc]
  unfold phiApply
  rw [this, zero_add]
  show some _ = some _
  rw [← List.ofFn_eq_map, List.sum_ofFn]

theorem foldl_max {ι : Type} (f : ι → ℝ) (l : List ι) (m : ℝ) :
    m ≤ l.foldl (fun m i => max m (f i)) m ∧ (∀ i ∈ l, f i ≤ l.foldl (fun m i => max m (f i)) m) ∧
      (l.foldl (fun m i => max m (f i)) m = m ∨ ∃ i ∈ l, l.foldl (fun m i => max m (f i)) m = f i) := by
  induction l generalizing m with
  | nil => simp
  | cons a l ih =>
    obtain ⟨h1, h2, h3⟩ := ih (max m (f a))
    rw [List.foldl_cons]
    refine ⟨le_trans (le_max_left _ _) h1, ?_, ?_⟩
    · intro i hi
      rcases List.mem_cons.mp hi with rfl | hi
      · exact le_trans (le_max_right _ _) h1
      · exact h2 i hi
    · rcases h3 with h3 | ⟨i, hi, h3⟩
      · rcases max_choice m (f a) with hm | hm
        · left; rw [h3, hm]
        · right; exact ⟨a, by simp, by rw [h3, hm]⟩
      · right; exact ⟨i, by simp [hi], h3⟩

theorem scale_pos (a : State) : 0 < scale a := lt_of_lt_of_le (by norm_num) (le_max_right _ _)

theorem worst_num (a p : Fin 6 → ℝ) :
    worst (num a) (num p) = (List.finRange 6).foldl (fun m i => max m (|a i - p i| / scale (num a))) 0 := by
  unfold worst
  congr 1
  funext m i
  show (if m < |a i - p i| / scale (num a) then |a i - p i| / scale (num a) else m) = _
  split
  · rename_i h; exact (max_eq_right h.le).symm
  · rename_i h; exact (max_eq_left (not_lt.mp h)).symm

/-- **C222 (the common scale).** The scale is the largest component of the propagated difference, or 1e-30 when all
are smaller. -/
theorem scale_spec (a : Fin 6 → ℝ) :
    (∀ i, |a i| ≤ scale (num a)) ∧ 1e-30 ≤ scale (num a) ∧
      (scale (num a) = 1e-30 ∨ ∃ i, scale (num a) = |a i|) := by
  have e : scale (num a) = max ((List.finRange 6).foldl (fun m i => max m |a i|) 0) (1e-30) := rfl
  obtain ⟨-, h2, h3⟩ := foldl_max (fun i => |a i|) (List.finRange 6) 0
  refine ⟨fun i => ?_, ?_, ?_⟩
  · rw [e]; exact le_trans (h2 i (List.mem_finRange i)) (le_max_left _ _)
  · rw [e]; exact le_max_right _ _
  · rw [e]
    rcases max_choice ((List.finRange 6).foldl (fun m i => max m |a i|) 0) (1e-30 : ℝ) with hm | hm
    · rw [hm]
      rcases h3 with h3 | ⟨i, -, h3⟩
      · exfalso
        rw [h3] at hm
        have : (1e-30 : ℝ) ≤ 0 := by rw [← hm]; exact le_max_right _ _
        norm_num at this
      · right; exact ⟨i, h3⟩
    · left; exact hm

/-- **C222 (what the number bounds).** When everything is a number, the answer is at most `ε` exactly when every
component of `Φ δ` is within `ε` times the common scale of the propagated difference. -/
theorem check_le_iff {E : Type} {stm : State → ℝ → Except E (State × (Fin 6 → Fin 6 → V))}
    {rk4 : State → ℝ → ℝ → Except E State} {state : State} {dt step : ℝ} {d : Fin 6 → ℝ} {x : State}
    {phi : Fin 6 → Fin 6 → ℝ} {nom per : Fin 6 → ℝ}
    (h1 : stm state dt = .ok (x, fun i j => some (phi i j)))
    (h2 : rk4 state (substep dt step) dt = .ok (num nom))
    (h3 : rk4 (perturb state (num d)) (substep dt step) dt = .ok (num per)) {ε : ℝ} (hε : 0 ≤ ε) :
    ∃ err, check stm rk4 state dt step (num d) = .ok err ∧
      (err ≤ ε ↔ ∀ i, |(per i - nom i) - ∑ j, phi i j * d j| ≤ ε * scale (num fun i => per i - nom i)) := by
  have e : check stm rk4 state dt step (num d)
      = .ok (worst (num fun i => per i - nom i) (num fun i => ∑ j, phi i j * d j)) := by
    unfold check
    rw [h1]
    dsimp only
    rw [h2]
    dsimp only
    rw [h3]
    dsimp only
    rw [phiApply_num]
    rfl
  refine ⟨_, e, ?_⟩
  rw [worst_num]
  obtain ⟨-, g2, g3⟩ := foldl_max
    (fun i => |(per i - nom i) - ∑ j, phi i j * d j| / scale (num fun i => per i - nom i)) (List.finRange 6) 0
  constructor
  · intro h i
    exact (div_le_iff₀ (scale_pos _)).mp (le_trans (g2 i (List.mem_finRange i)) h)
  · intro h
    rcases g3 with g3 | ⟨i, -, g3⟩
    · rw [g3]; exact hε
    · rw [g3]; exact (div_le_iff₀ (scale_pos _)).mpr (h i)

/-- **C222 (an exact matrix passes).** For a linear propagator and its own matrix the answer is zero, for every
state, perturbation, interval and step. -/
theorem exact_is_zero {E : Type} {stm : State → ℝ → Except E (State × (Fin 6 → Fin 6 → V))}
    {rk4 : State → ℝ → ℝ → Except E State} {s0 : Fin 6 → ℝ} {dt step : ℝ} {d : Fin 6 → ℝ} {x : State}
    {phi : Fin 6 → Fin 6 → ℝ} {c : Fin 6 → ℝ}
    (h1 : stm (num s0) dt = .ok (x, fun i j => some (phi i j)))
    (h2 : ∀ y h, rk4 (num y) h dt = .ok (num fun i => c i + ∑ j, phi i j * y j)) :
    check stm rk4 (num s0) dt step (num d) = .ok 0 := by
  have hp : perturb (num s0) (num d) = num fun i => s0 i + d i := rfl
  obtain ⟨err, e1, e2⟩ := check_le_iff h1 (h2 s0 (substep dt step)) (by rw [hp]; exact h2 _ _) (le_refl (0 : ℝ))
  rw [e1]
  congr 1
  have hle := e2.mpr (by
    intro i
    have : (c i + ∑ j, phi i j * (s0 j + d j)) - (c i + ∑ j, phi i j * s0 j) - ∑ j, phi i j * d j = 0 := by
      simp only [mul_add, Finset.sum_add_distrib]
      ring
    rw [this]
    simp)
  refine le_antisymm hle ?_
  have := congrArg (fun r : Except E ℝ => match r with | .ok v => v | .error _ => 0) e1
  dsimp only at this
  rw [← this]
  unfold check
  rw [h1]
  dsimp only
  rw [h2]
  dsimp only
  rw [hp, h2]
  dsimp only
  rw [phiApply_num]
  show 0 ≤ worst (num _) (num _)
  rw [worst_num]
  exact (foldl_max _ _ _).1

/-- **C222 (failures).** The check fails exactly when one of the three propagations does, with the error of the first
of them that fails. -/
theorem check_error_iff {E : Type} {stm : State → ℝ → Except E (State × (Fin 6 → Fin 6 → V))}
    {rk4 : State → ℝ → ℝ → Except E State} {state : State} {dt step : ℝ} {d : Fin 6 → V} {e : E} :
    check stm rk4 state dt step d = .error e ↔
      stm state dt = .error e ∨ ∃ a, stm state dt = .ok a ∧ (rk4 state (substep dt step) dt = .error e ∨
        ∃ b, rk4 state (substep dt step) dt = .ok b ∧ rk4 (perturb state d) (substep dt step) dt = .error e) := by
  unfold check
  cases h1 : stm state dt with
  | error e1 => simp
  | ok a =>
    dsimp only
    cases h2 : rk4 state (substep dt step) dt with
    | error e2 => simp
    | ok b =>
      dsimp only
      cases h3 : rk4 (perturb state d) (substep dt step) dt with
      | error e3 => simp
      | ok g => simp

/-- **C222 (steps).** The sub-steps have one length, cover the interval exactly, and are no longer than the step asked
for (at least a picosecond). -/
theorem steps_cover (dt step : ℝ) :
    1 ≤ steps dt step ∧ steps dt step * substep dt step = dt ∧ |substep dt step| ≤ max |step| (1e-12) := by
  have hw : (0 : ℝ) < max |step| (1e-12) := lt_of_lt_of_le (by norm_num) (le_max_right _ _)
  have h1 : 1 ≤ steps dt step := by
    unfold steps
    have : (1 : ℤ) ≤ max ⌈|dt| / max |step| (1e-12)⌉ 1 := le_max_right _ _
    omega
  have hp : (0 : ℝ) < steps dt step := by exact_mod_cast h1
  refine ⟨h1, ?_, ?_⟩
  · unfold substep
    field_simp
  · unfold substep
    rw [abs_div, abs_of_pos hp, div_le_iff₀ hp]
    have hc : |dt| / max |step| (1e-12) ≤ (steps dt step : ℝ) := by
      have h2 : ((steps dt step : ℕ) : ℤ) = max ⌈|dt| / max |step| (1e-12)⌉ 1 := by
        unfold steps
        exact Int.toNat_of_nonneg (le_trans (by norm_num) (le_max_right _ _))
      have h3 : ((steps dt step : ℕ) : ℝ) = ((max ⌈|dt| / max |step| (1e-12)⌉ 1 : ℤ) : ℝ) := by
        rw [← h2]; simp
      rw [h3]
      exact le_trans (Int.le_ceil _) (by exact_mod_cast le_max_left _ _)
    have := (div_le_iff₀ hw).mp hc
    linarith

/-- **Finding (C222): a propagation that ends in NaN validates perfectly.** Whatever the matrix, if the perturbed
propagation answers with components that are not numbers, the reported error is zero. -/
theorem nan_is_perfect {E : Type} {stm : State → ℝ → Except E (State × (Fin 6 → Fin 6 → V))}
    {rk4 : State → ℝ → ℝ → Except E State} {state : State} {dt step : ℝ} {d : Fin 6 → V} {x nom : State}
    {phi : Fin 6 → Fin 6 → V} (h1 : stm state dt = .ok (x, phi)) (h2 : rk4 state (substep dt step) dt = .ok nom)
    (h3 : rk4 (perturb state d) (substep dt step) dt = .ok fun _ => none) :
    check stm rk4 state dt step d = .ok 0 := by
  unfold check
  rw [h1]
  dsimp only
  rw [h2]
  dsimp only
  rw [h3]
  dsimp only
  congr 1

theorem add_none (s : V) : add s none = none := by cases s <;> rfl

/-- **Finding (C222): a matrix of NaN validates perfectly.** A row of the matrix that is not a number is passed over;
when all rows are, the error is zero whatever the trajectories do. -/
theorem nan_matrix_is_perfect {E : Type} {stm : State → ℝ → Except E (State × (Fin 6 → Fin 6 → V))}
    {rk4 : State → ℝ → ℝ → Except E State} {state : State} {dt step : ℝ} {d : Fin 6 → V} {x nom per : State}
    (h1 : stm state dt = .ok (x, fun _ _ => none)) (h2 : rk4 state (substep dt step) dt = .ok nom)
    (h3 : rk4 (perturb state d) (substep dt step) dt = .ok per) :
    check stm rk4 state dt step d = .ok 0 := by
  unfold check
  rw [h1]
  dsimp only
  rw [h2]
  dsimp only
  rw [h3]
  dsimp only
  have hp : phiApply (fun _ _ => none) d = fun _ => none := by
    funext i
    unfold phiApply
    show (List.finRange 6).foldl (fun s j => add s none) (some 0) = none
    simp only [add_none]
    rfl
  rw [hp]
  congr 1
  unfold worst
  have hs : ∀ v : V, sub v none = none := by intro v; cases v <;> rfl
  simp only [hs]
  rfl

/-- Uniform motion, and a matrix that says velocities never change with the initial velocity. -/
def drift (y : Fin 6 → ℝ) (t : ℝ) : Fin 6 → ℝ := ![y 0 + t * y 3, y 1 + t * y 4, y 2 + t * y 5, y 3, y 4, y 5]
def wrongPhi (t : ℝ) : Fin 6 → Fin 6 → ℝ :=
  ![![1, 0, 0, t, 0, 0], ![0, 1, 0, 0, t, 0], ![0, 0, 1, 0, 0, t],
    ![0, 0, 0, 0, 0, 0], ![0, 0, 0, 0, 0, 0], ![0, 0, 0, 0, 0, 0]]

/-- **Finding (C222): velocities are hidden by the scale.** The documentation divides each component by its own size;
the code divides all by the largest, kilometres and kilometres per second together. For free motion over `t` seconds
and a change of velocity along one axis, a matrix without any velocity rows is reported good to `1/t` (below the
required 1e-7 after four months), although its velocity component is off by its whole value. -/
theorem velocity_hidden {E : Type} {stm : State → ℝ → Except E (State × (Fin 6 → Fin 6 → V))}
    {rk4 : State → ℝ → ℝ → Except E State} (s0 : Fin 6 → ℝ) (step t v : ℝ) (ht : 0 < t) {x : State}
    (h1 : stm (num s0) t = .ok (x, fun i j => some (wrongPhi t i j)))
    (h2 : ∀ y h, rk4 (num y) h t = .ok (num (drift y t))) :
    ∃ err, check stm rk4 (num s0) t step (num ![0, 0, 0, v, 0, 0]) = .ok err ∧ err ≤ 1 / t ∧
      drift (fun i => s0 i + ![0, 0, 0, v, 0, 0] i) t 3 - drift s0 t 3 = v ∧
      ∑ j, wrongPhi t 3 j * ![0, 0, 0, v, 0, 0] j = 0 := by
  have hp : perturb (num s0) (num ![0, 0, 0, v, 0, 0]) = num fun i => s0 i + ![0, 0, 0, v, 0, 0] i := rfl
  obtain ⟨err, e1, e2⟩ := check_le_iff (d := ![0, 0, 0, v, 0, 0]) h1 (h2 s0 (substep t step))
    (by rw [hp]; exact h2 _ _) (by positivity : (0 : ℝ) ≤ 1 / t)
  refine ⟨err, e1, e2.mpr ?_, ?_, ?_⟩
  · have hs := (scale_spec fun i => drift (fun i => s0 i + ![0, 0, 0, v, 0, 0] i) t i - drift s0 t i).1 0
    generalize scale (num fun i => drift (fun i => s0 i + ![0, 0, 0, v, 0, 0] i) t i - drift s0 t i) = S at hs ⊢
    have h0 : drift (fun i => s0 i + ![0, 0, 0, v, 0, 0] i) t 0 - drift s0 t 0 = t * v := by
      show (s0 0 + 0) + t * (s0 3 + v) - (s0 0 + t * s0 3) = t * v
      ring
    rw [h0, abs_mul, abs_of_pos ht] at hs
    have hbig : |v| ≤ 1 / t * S := by
      rw [one_div, ← div_eq_inv_mul, le_div_iff₀ ht, mul_comm]
      exact hs
    intro i
    refine le_trans ?_ hbig
    rw [Fin.sum_univ_six]
    match i with
    | 0 =>
      show |(s0 0 + 0) + t * (s0 3 + v) - (s0 0 + t * s0 3) - (1 * 0 + 0 * 0 + 0 * 0 + t * v + 0 * 0 + 0 * 0)| ≤ _
      ring_nf; simp
    | 1 =>
      show |(s0 1 + 0) + t * (s0 4 + 0) - (s0 1 + t * s0 4) - (0 * 0 + 1 * 0 + 0 * 0 + 0 * v + t * 0 + 0 * 0)| ≤ _
      ring_nf; simp
    | 2 =>
      show |(s0 2 + 0) + t * (s0 5 + 0) - (s0 2 + t * s0 5) - (0 * 0 + 0 * 0 + 1 * 0 + 0 * v + 0 * 0 + t * 0)| ≤ _
      ring_nf; simp
    | 3 =>
      show |(s0 3 + v) - s0 3 - (0 * 0 + 0 * 0 + 0 * 0 + 0 * v + 0 * 0 + 0 * 0)| ≤ _
      ring_nf; exact le_refl _
    | 4 =>
      show |(s0 4 + 0) - s0 4 - (0 * 0 + 0 * 0 + 0 * 0 + 0 * v + 0 * 0 + 0 * 0)| ≤ _
      ring_nf; simp
    | 5 =>
      show |(s0 5 + 0) - s0 5 - (0 * 0 + 0 * 0 + 0 * 0 + 0 * v + 0 * 0 + 0 * 0)| ≤ _
      ring_nf; simp
  · show (s0 3 + v) - s0 3 = v
    ring
  · rw [Fin.sum_univ_six]
    show (0 : ℝ) * 0 + 0 * 0 + 0 * 0 + 0 * v + 0 * 0 + 0 * 0 = 0
    ring

/-- Propagators meeting the hypotheses of `exact_is_zero`: free motion and its matrix over two seconds. -/
example : ∃ (stm : State → ℝ → Except Unit (State × (Fin 6 → Fin 6 → V))) (rk4 : State → ℝ → ℝ → Except Unit State),
    check stm rk4 (num ![7000, 0, 0, 0, 7.5, 0]) 2 0.6 (num ![0.001, 0, 0, 0, 0, 1]) = .ok 0 := by
  refine ⟨fun s _ => .ok (s, fun i j => some (if i = j then 1 else 0)), fun s _ _ => .ok s, ?_⟩
  refine exact_is_zero (c := 0) rfl fun y h => ?_
  congr 2
  funext i
  simp

end Verif.StmCheck
