import Mathlib.Data.Real.Basic
import Mathlib.Data.List.Sort

/-!
# Seeding policies

Model of src/event/search/bracketing.rs: the sub-intervals on which a function may cross a threshold.

Simplifications: times and values are real numbers, `g` is `f - threshold`; loops run on fuel (`none` when it is used up). The
two passes share the loop over the coarse steps (`cells`); the values kept from one step to the next are written as calls of `g`.
`find_extrema` is a parameter.
-/

namespace Verif.Bracketing

/-- `opposite_sign` (bracketing.rs 39-42); the sign of `0.0` is that of the positive numbers. -/
abbrev Opposite (a b : ℝ) : Prop := (a < 0 ∧ 0 ≤ b) ∨ (0 ≤ a ∧ b < 0)

/-- The next time of the loop (bracketing.rs 68-75). -/
noncomputable def next (b step t : ℝ) : ℝ := if t + step ≤ b then t + step else b

/-- The loop over the window (bracketing.rs 67-84, 120-139): the steps from `t` to `b`. -/
noncomputable def cells (b step : ℝ) : ℕ → ℝ → Option (List (ℝ × ℝ))
  | 0, _ => none
  | n + 1, t => if t < b then (cells b step n (next b step t)).map ((t, next b step t) :: ·) else some []

/-- `fixed_step_brackets` (bracketing.rs 51-87). -/
noncomputable def fixedStep (g : ℝ → ℝ) (a b step : ℝ) (fuel : ℕ) : Option (List (ℝ × ℝ)) :=
  (cells b step fuel a).map fun l => l.filter fun c => decide (Opposite (g c.1) (g c.2))

/-- The loop over the stack (bracketing.rs 142-168), the top of the stack first. -/
noncomputable def process (g : ℝ → ℝ) (min : ℝ) : ℕ → List (ℝ × ℝ) → Option (List (ℝ × ℝ))
  | 0, _ => none
  | _ + 1, [] => some []
  | n + 1, (l, h) :: st =>
    if Opposite (g l) (g h) then
      if h - l ≤ min + min then (process g min n st).map ((l, h) :: ·)
      else process g min n ((l + (h - l) * 0.5, h) :: (l, l + (h - l) * 0.5) :: st)
    else process g min n st

/-- `adaptive_step_brackets` (bracketing.rs 97-172). -/
noncomputable def adaptive (g : ℝ → ℝ) (a b step min : ℝ) (fuel : ℕ) : Option (List (ℝ × ℝ)) :=
  (cells b step fuel a).bind fun l => (process g min fuel l.reverse).map fun r =>
    r.insertionSort fun c d => c.1 ≤ d.1

/-- The step of the two searches (bracketing.rs 239-248, 295-303). -/
noncomputable def searchStep (range : ℝ) : ℝ := if range * 0.1 < 1e-10 then range * 0.5 else range * 0.1

/-- The time before (bracketing.rs 250-257). -/
noncomputable def before (a step t : ℝ) : ℝ := if a ≤ t - step then t - step else a

/-- The loop of `search_crossing_backward` (bracketing.rs 260-282). -/
noncomputable def backLoop (g : ℝ → ℝ) (a step : ℝ) : ℕ → ℝ × ℝ → Option (Option (ℝ × ℝ))
  | 0, _ => none
  | n + 1, (l, h) =>
    if a < l then if Opposite (g l) (g h) then some (some (l, h)) else backLoop g a step n (before a step l, l)
    else some (if Opposite (g l) (g h) then some (l, h) else none)

/-- `search_crossing_backward` (bracketing.rs 229-283). -/
noncomputable def backward (g : ℝ → ℝ) (a e : ℝ) (fuel : ℕ) : Option (Option (ℝ × ℝ)) :=
  backLoop g a (searchStep (e - a)) fuel (before a (searchStep (e - a)) e, e)

/-- The loop of `search_crossing_forward` (bracketing.rs 315-336). -/
noncomputable def forthLoop (g : ℝ → ℝ) (b step : ℝ) : ℕ → ℝ × ℝ → Option (Option (ℝ × ℝ))
  | 0, _ => none
  | n + 1, (l, h) =>
    if h < b then if Opposite (g l) (g h) then some (some (l, h)) else forthLoop g b step n (h, next b step h)
    else some (if Opposite (g l) (g h) then some (l, h) else none)

/-- `search_crossing_forward` (bracketing.rs 285-337). -/
noncomputable def forward (g : ℝ → ℝ) (e b : ℝ) (fuel : ℕ) : Option (Option (ℝ × ℝ)) :=
  forthLoop g b (searchStep (b - e)) fuel (e, next b (searchStep (b - e)) e)

/-- An extremum: time, value less the threshold, whether it is a maximum. -/
structure Ext where
  t : ℝ
  v : ℝ
  max : Bool

/-- The loop over the extrema (bracketing.rs 196-214). -/
noncomputable def around (g : ℝ → ℝ) (a b : ℝ) (fuel : ℕ) : List Ext → Option (List (ℝ × ℝ))
  | [] => some []
  | x :: xs =>
    if x.max = true ∧ 0 < x.v then
      (backward g a x.t fuel).bind fun r => (forward g x.t b fuel).bind fun s =>
        (around g a b fuel xs).map fun l => r.toList ++ s.toList ++ l
    else around g a b fuel xs

/-- `dedup_by` (bracketing.rs 218-223): an element close to the one kept before it is dropped. -/
noncomputable def dedup : List (ℝ × ℝ) → List (ℝ × ℝ)
  | [] => []
  | c :: l => c :: go c l
where
  go (c : ℝ × ℝ) : List (ℝ × ℝ) → List (ℝ × ℝ)
    | [] => []
    | d :: l => if |d.1 - c.1| < 1e-8 ∧ |d.2 - c.2| < 1e-8 then go c l else d :: go d l

/-- `extrema_based_brackets` (bracketing.rs 183-226). -/
noncomputable def extremaBased (g : ℝ → ℝ) (a b : ℝ) (extrema : List Ext) (fuel : ℕ) : Option (List (ℝ × ℝ)) :=
  (around g a b fuel extrema).map fun l => dedup (l.insertionSort fun c d => c.1 ≤ d.1)

end Verif.Bracketing
