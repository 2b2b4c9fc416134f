import Verif.Grid.Model
import Verif.Ffi.Model

/-
The sky grid of the C interface (siderust-ffi/src/sampling.rs), over the grids of `Verif.Grid` and the arrays of
`Verif.Ffi`. `skyGridCells` is for finite numbers (real arithmetic); `rows` follows all classes of `f64`.
-/
namespace Verif.CSky
open Verif.Grid Verif.Ffi

/-- `SiderustSkyGridCell` (sampling.rs 21-30). -/
structure CCell where
  altitude : ℝ
  azimuth : ℝ
  solidAngle : ℝ

/-- `ffi_from` (sampling.rs 34-40). -/
def ffiFrom (c : Grid.Cell) : CCell := ⟨c.alt, c.az, c.solid⟩

/-- The grid of sampling.rs 69-74. -/
noncomputable def gridOf (altMin altMax altStep azStep : ℝ) (equalArea : Bool) : Grid.Grid :=
  (if equalArea then Grid.equalArea altStep azStep else Grid.withSteps altStep azStep).withAltRange altMin altMax

/-- `siderust_sky_grid_cells` (sampling.rs 55-78). -/
noncomputable def skyGridCells (A : Alloc) (altMin altMax altStep azStep : ℝ) (equalArea : Bool) (out count : Addr)
    (m : Mem CCell) : Status × Mem CCell :=
  if out = 0 ∨ count = 0 then (.nullPointer, m)
  else vecToC A (gridOf altMin altMax altStep azStep equalArea).cells ffiFrom out count m

/-- `siderust_sky_grid_cells_free` (sampling.rs 86-88). -/
def skyGridFree (p n : Nat) (m : Mem CCell) : Option (Mem CCell) := freeSlice p n m

/-! ### Other numbers -/

/-- A number of type `f64`. -/
inductive Num
  | fin (x : ℝ)
  | pinf
  | ninf
  | nan

/-- `a <= b`. -/
def Num.le : Num → Num → Prop
  | .nan, _ => False
  | _, .nan => False
  | .ninf, _ => True
  | _, .pinf => True
  | .fin a, .fin b => a ≤ b
  | _, _ => False

/-- `a - b`. -/
noncomputable def Num.sub : Num → Num → Num
  | .nan, _ => .nan
  | _, .nan => .nan
  | .fin a, .fin b => .fin (a - b)
  | .pinf, .pinf => .nan
  | .ninf, .ninf => .nan
  | .pinf, _ => .pinf
  | .ninf, _ => .ninf
  | _, .pinf => .ninf
  | _, .ninf => .pinf

/-- `a / b` for a `b` above zero or NaN. -/
noncomputable def Num.div : Num → Num → Num
  | .nan, _ => .nan
  | _, .nan => .nan
  | .fin a, .fin b => .fin (a / b)
  | .pinf, .fin _ => .pinf
  | .ninf, .fin _ => .ninf
  | .fin _, _ => .fin 0
  | _, _ => .nan

/-- `x.round() as usize` on a 64-bit machine: saturating, NaN to zero. -/
noncomputable def Num.roundUsize : Num → ℕ
  | .nan => 0
  | .ninf => 0
  | .pinf => 2 ^ 64 - 1
  | .fin x => min (Grid.roundUsize x) (2 ^ 64 - 1)

open Classical in
/-- `n_alt` (src/coordinates/sampling.rs 211-216) for any numbers. -/
noncomputable def rows (lo hi step : Num) : ℕ :=
  if hi.le lo ∨ step.le (.fin 0) then 0 else ((hi.sub lo).div step).roundUsize

end Verif.CSky
