import Mathlib.Analysis.SpecialFunctions.Trigonometric.Basic

/-!
The geometry of a Sun that moves on the ecliptic, written down independently of the code.
-/
namespace Verif.SunModel.Spec

/-- Degrees in radians. -/
noncomputable def deg (d : ℝ) : ℝ := d / 180 * Real.pi

/-- Ecliptic longitude of the Sun: mean longitude plus the equation of the centre. -/
noncomputable def sunLongitude (days : ℝ) : ℝ :=
  deg (280.46646 + 0.98564736 * days
    + 1.914602 * Real.sin (deg (357.52911 + 0.98560028 * days))
    + 0.019993 * Real.sin (2 * deg (357.52911 + 0.98560028 * days))
    + 0.000289 * Real.sin (3 * deg (357.52911 + 0.98560028 * days)))

/-- Mean obliquity. -/
noncomputable def sunObliquity (days : ℝ) : ℝ := deg (23.439291 - 0.00000036 * days)

/-- Cosine of the angle between the zenith of a place whose meridian lies at sidereal angle `theta`,
and the Sun at ecliptic longitude `lam` for the obliquity `eps`: the sine of its altitude. The point
of the ecliptic has the equatorial coordinates `(cos λ, cos ε sin λ, sin ε sin λ)`. -/
noncomputable def sinAltitude (theta lat lam eps : ℝ) : ℝ :=
  Real.cos lat * Real.cos theta * Real.cos lam
    + Real.cos lat * Real.sin theta * (Real.cos eps * Real.sin lam)
    + Real.sin lat * (Real.sin eps * Real.sin lam)

/-- The altitude of a Sun of fixed declination that turns once per day and culminates at `transit`. -/
noncomputable def diurnal (lat sinDec cosDec transit t : ℝ) : ℝ :=
  Real.sin lat * sinDec + Real.cos lat * cosDec * Real.cos (2 * Real.pi * (t - transit))

end Verif.SunModel.Spec
