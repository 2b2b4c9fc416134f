import Mathlib.Analysis.SpecialFunctions.Trigonometric.Basic
import Mathlib.LinearAlgebra.Matrix.Notation
import Mathlib.LinearAlgebra.Matrix.Determinant.Basic
import Mathlib.LinearAlgebra.CrossProduct

/-!
# What Earth orientation should mean

Independent of the model: angles up to whole turns, proper rotations, chains of rotations.
-/

namespace Verif.Earth.Spec

open Matrix

/-- Two angles that differ by whole turns. -/
def SameAngle (a b : ℝ) : Prop := ∃ k : ℤ, a = b + k * (2 * Real.pi)

/-- An angle in the principal range. -/
def Principal (a : ℝ) : Prop := 0 ≤ a ∧ a < 2 * Real.pi

/-- The Earth rotation angle of IAU 2000 Resolution B1.8: a linear function of UT1 days since
J2000, `2π (0.7790572732640 + 1.00273781191135448 T)`. -/
noncomputable def earthRotation (days : ℝ) : ℝ :=
  2 * Real.pi * (0.7790572732640 + 1.00273781191135448 * days)

/-- A proper rotation: keeps lengths and orientation. -/
def Proper (m : Matrix (Fin 3) (Fin 3) ℝ) : Prop := mᵀ * m = 1 ∧ m.det = 1

/-- A chain of available rotations from one frame to another, with the matrix it amounts to. -/
inductive Chain {F : Type} (R : F → F → Option (Matrix (Fin 3) (Fin 3) ℝ)) (ok : F → F → Prop) :
    F → F → Matrix (Fin 3) (Fin 3) ℝ → Prop
  | refl (a : F) : Chain R ok a a 1
  | step {a b d : F} {m n : Matrix (Fin 3) (Fin 3) ℝ} :
      Chain R ok a b m → R b d = some n → ok b d → Chain R ok a d (n * m)

/-- The third axis. -/
def pole : Fin 3 → ℝ := ![0, 0, 1]

/-- The unit vector with longitude `l` and latitude `b`. -/
noncomputable def direction (l b : ℝ) : Fin 3 → ℝ :=
  ![Real.cos b * Real.cos l, Real.cos b * Real.sin l, Real.sin b]

/-- The value of a trigonometric series with integer multiples of eight arguments. -/
noncomputable def series (terms : List (List ℤ × ℝ × ℝ)) (args : List ℝ) : ℝ :=
  (terms.map fun t =>
    t.2.1 * Real.sin ((List.zipWith (fun (k : ℤ) x => (k : ℝ) * x) t.1 args).sum)
      + t.2.2 * Real.cos ((List.zipWith (fun (k : ℤ) x => (k : ℝ) * x) t.1 args).sum)).sum

/-- The equation of the equinoxes' complementary terms (IERS Conventions, Table 5.2e): integer
multipliers, then the sine and cosine coefficients in hundredths of a microarcsecond. -/
def complementary : List (List ℤ × ℤ × ℤ) := [
  ([0, 0, 0, 0, 1, 0, 0, 0], 264096, -39),
  ([0, 0, 0, 0, 2, 0, 0, 0], 6352, -2),
  ([0, 0, 2, -2, 3, 0, 0, 0], 1175, 1),
  ([0, 0, 2, -2, 1, 0, 0, 0], 1121, 1),
  ([0, 0, 2, -2, 2, 0, 0, 0], -455, 0),
  ([0, 0, 2, 0, 3, 0, 0, 0], 202, 0),
  ([0, 0, 2, 0, 1, 0, 0, 0], 198, 0),
  ([0, 0, 0, 0, 3, 0, 0, 0], -172, 0),
  ([0, 1, 0, 0, 1, 0, 0, 0], -141, -1),
  ([0, 1, 0, 0, -1, 0, 0, 0], -126, -1),
  ([1, 0, 0, 0, -1, 0, 0, 0], -63, 0),
  ([1, 0, 0, 0, 1, 0, 0, 0], -63, 0),
  ([0, 1, 2, -2, 3, 0, 0, 0], 46, 0),
  ([0, 1, 2, -2, 1, 0, 0, 0], 45, 0),
  ([0, 0, 4, -4, 4, 0, 0, 0], 36, 0),
  ([0, 0, 1, -1, 1, -8, 12, 0], -24, -12),
  ([0, 0, 2, 0, 0, 0, 0, 0], 32, 0),
  ([0, 0, 2, 0, 2, 0, 0, 0], 28, 0),
  ([1, 0, 2, 0, 3, 0, 0, 0], 27, 0),
  ([1, 0, 2, 0, 1, 0, 0, 0], 26, 0),
  ([0, 0, 2, -2, 0, 0, 0, 0], -21, 0),
  ([0, 1, -2, 2, -3, 0, 0, 0], 19, 0),
  ([0, 1, -2, 2, -1, 0, 0, 0], 18, 0),
  ([0, 0, 0, 0, 0, 8, -13, -1], -10, 5),
  ([0, 0, 0, 2, 0, 0, 0, 0], 15, 0),
  ([2, 0, -2, 0, -1, 0, 0, 0], -14, 0),
  ([1, 0, 0, -2, 1, 0, 0, 0], 14, 0),
  ([0, 1, 2, -2, 2, 0, 0, 0], -14, 0),
  ([1, 0, 0, -2, -1, 0, 0, 0], 14, 0),
  ([0, 0, 4, -2, 4, 0, 0, 0], 13, 0),
  ([0, 0, 2, -2, 4, 0, 0, 0], -11, 0),
  ([1, 0, -2, 0, -3, 0, 0, 0], 11, 0),
  ([1, 0, -2, 0, -1, 0, 0, 0], 11, 0)]

/-- The term proportional to the time. -/
def complementaryT : List (List ℤ × ℤ × ℤ) := [([0, 0, 0, 0, 1, 0, 0, 0], -87, 0)]

/-- Coefficients in arcseconds. -/
noncomputable def inArcsec (ts : List (List ℤ × ℤ × ℤ)) : List (List ℤ × ℝ × ℝ) :=
  ts.map fun t => (t.1, (t.2.1 : ℝ) / 10 ^ 8, (t.2.2 : ℝ) / 10 ^ 8)

/-- The fundamental arguments (IERS Conventions, equations 5.43 and 5.44) in radians: the five
Delaunay arguments, the longitudes of Venus and the Earth, the general precession. -/
noncomputable def fundamental (t : ℝ) : List ℝ :=
  let r := Real.pi / 648000
  [(485868.249036 + 1717915923.2178 * t + 31.8792 * t ^ 2 + 0.051635 * t ^ 3
      - 0.00024470 * t ^ 4) * r,
   (1287104.793048 + 129596581.0481 * t - 0.5532 * t ^ 2 + 0.000136 * t ^ 3
      - 0.00001149 * t ^ 4) * r,
   (335779.526232 + 1739527262.8478 * t - 12.7512 * t ^ 2 - 0.001037 * t ^ 3
      + 0.00000417 * t ^ 4) * r,
   (1072260.703692 + 1602961601.2090 * t - 6.3706 * t ^ 2 + 0.006593 * t ^ 3
      - 0.00003169 * t ^ 4) * r,
   (450160.398036 - 6962890.5431 * t + 7.4722 * t ^ 2 + 0.007702 * t ^ 3
      - 0.00005939 * t ^ 4) * r,
   3.176146697 + 1021.3285546211 * t,
   1.753470314 + 628.3075849991 * t,
   0.02438175 * t + 0.00000538691 * t ^ 2]

/-- A polynomial by its coefficients, lowest first. -/
noncomputable def poly (c : List ℚ) (t : ℝ) : ℝ :=
  ((List.range c.length).map fun i => ((c.getD i 0 : ℚ) : ℝ) * t ^ i).sum

/-- Radians from microarcseconds. -/
noncomputable def microarcsec (x : ℝ) : ℝ := x * Real.pi / 648000000000

/-- The four Fukushima–Williams angles of the IAU 2006 precession with the frame bias
(Hilton et al. 2006; IERS Conventions 2010, 5.6.4), in microarcseconds: γ̄, φ̄, ψ̄, ε_A. -/
def gammaBar : List ℚ := [-52928, 10556378, 493204.4, -312.38, -2.788, 0.0260]
def phiBar : List ℚ := [84381412819, -46811016, 51126.8, 532.89, -0.440, -0.0176]
def psiBar : List ℚ := [-41775, 5038481484, 1558417.5, -185.22, -26.452, -0.0148]
def epsilonA : List ℚ := [84381406000, -46836769, -183.1, 2003.40, -0.576, -0.0434]

/-- The polynomial part of `s + XY/2` (IERS Conventions 2010, table 5.2d), in microarcseconds. -/
def locator : List ℚ := [94, 3808.65, -122.68, -72574.11]

end Verif.Earth.Spec
