import Verif.Elp.Model

/-!
# What the theory says

The series of ELP 2000-82B as they are published: every term an amplitude (perhaps times a power of the time) and a
sine of an integer combination of the arguments; longitude, latitude and distance collect every third series.
-/

namespace Verif.Elp.Spec

/-- A polynomial in the time. -/
noncomputable def poly (c : Fin 5 → ℝ) (t : ℝ) : ℝ := ∑ i : Fin 5, c i * t ^ (i : ℕ)

/-- The secular part of an argument. -/
noncomputable def secular (c : Fin 5 → ℝ) (t : ℝ) : ℝ := c 0 + c 1 * t

/-- The power of the time that multiplies the amplitudes of a series. -/
def power (n : ℕ) : ℕ :=
  if 7 ≤ n ∧ n ≤ 9 ∨ 13 ≤ n ∧ n ≤ 15 ∨ 19 ≤ n ∧ n ≤ 21 ∨ 25 ≤ n ∧ n ≤ 27 then 1
  else if 34 ≤ n ∧ n ≤ 36 then 2
  else 0

/-- Amplitude of a main term after the corrections of the constants. -/
noncomputable def mainAmp (k : Const) (e : Main) : ℝ :=
  e.a + (e.b 0 + k.dtasm * e.b 4) * (k.delnp - k.am * k.delnu) + e.b 1 * k.delg + e.b 2 * k.dele + e.b 3 * k.delep

/-- Main terms: a sine for the angles, a cosine for the distance. -/
noncomputable def mainTerm (k : Const) (t : ℝ) (n : ℕ) (e : Main) : ℝ :=
  let y := ∑ i : Fin 4, (e.ilu i : ℝ) * poly (k.del i) t
  mainAmp k e * (if n = 3 then Real.cos y else Real.sin y)

/-- Terms from the figures of Earth and Moon, tides, relativity and solar eccentricity. -/
noncomputable def earthTerm (k : Const) (t : ℝ) (n : ℕ) (e : EarthT) : ℝ :=
  e.a * t ^ power n * Real.sin (e.o / 180 * Real.pi + e.iz * (k.zeta 0 + k.zeta 1 * t) +
    ∑ i : Fin 4, (e.ilu i : ℝ) * secular (k.del i) t)

/-- Planetary terms: the first table (series 10 to 15) has eight planets and the lunar arguments `D`, `l`, `F`, the
second (16 to 21) seven planets and all four lunar arguments. -/
noncomputable def planetTerm (k : Const) (t : ℝ) (n : ℕ) (e : Planet) : ℝ :=
  let pl : Fin 8 → ℝ := fun i => k.pArgs i 0 + k.pArgs i 1 * t
  let y := if n ≤ 15 then
      ∑ i : Fin 8, (e.ipla (Fin.castLE (by omega) i) : ℝ) * pl i +
        ((e.ipla 8 : ℝ) * secular (k.del 0) t + (e.ipla 9 : ℝ) * secular (k.del 2) t + (e.ipla 10 : ℝ) * secular (k.del 3) t)
    else
      ∑ i : Fin 7, (e.ipla (Fin.castLE (by omega) i) : ℝ) * pl (Fin.castLE (by omega) i) +
        ∑ i : Fin 4, (e.ipla (Fin.natAdd 7 i) : ℝ) * secular (k.del i) t
  e.o * t ^ power n * Real.sin (e.theta / 180 * Real.pi + y)

/-- Series number `n`. -/
noncomputable def series (k : Const) (d : Tables) (t : ℝ) (n : ℕ) : ℝ :=
  if n ≤ 3 then ((d.main n).map (mainTerm k t n)).sum
  else if 10 ≤ n ∧ n ≤ 21 then ((d.planet n).map (planetTerm k t n)).sum
  else ((d.earth n).map (earthTerm k t n)).sum

/-- Sum of the amplitudes of series number `n`. -/
noncomputable def amplitudes (k : Const) (d : Tables) (t : ℝ) (n : ℕ) : ℝ :=
  if n ≤ 3 then ((d.main n).map fun e => |mainAmp k e|).sum
  else if 10 ≤ n ∧ n ≤ 21 then ((d.planet n).map fun e => |e.o * t ^ power n|).sum
  else ((d.earth n).map fun e => |e.a * t ^ power n|).sum

/-- The series of one coordinate: `0` longitude, `1` latitude, `2` distance. -/
noncomputable def coordinate (k : Const) (d : Tables) (t : ℝ) (c : ℕ) : ℝ :=
  ∑ j ∈ Finset.range 12, series k d t (3 * j + 1 + c)

/-- Counter-clockwise turn about the first axis. -/
noncomputable def turnX (a : ℝ) (v : ℝ × ℝ × ℝ) : ℝ × ℝ × ℝ :=
  (v.1, Real.cos a * v.2.1 - Real.sin a * v.2.2, Real.sin a * v.2.1 + Real.cos a * v.2.2)

/-- Counter-clockwise turn about the third axis. -/
noncomputable def turnZ (a : ℝ) (v : ℝ × ℝ × ℝ) : ℝ × ℝ × ℝ :=
  (Real.cos a * v.1 - Real.sin a * v.2.1, Real.sin a * v.1 + Real.cos a * v.2.1, v.2.2)

/-- The point at a longitude, latitude (radians) and distance. -/
noncomputable def polar (lon lat r : ℝ) : ℝ × ℝ × ℝ :=
  (r * Real.cos lat * Real.cos lon, r * Real.cos lat * Real.sin lon, r * Real.sin lat)

/-- Squared length. -/
def norm2 (v : ℝ × ℝ × ℝ) : ℝ := v.1 ^ 2 + v.2.1 ^ 2 + v.2.2 ^ 2

/-- Inner product. -/
def dot (u v : ℝ × ℝ × ℝ) : ℝ := u.1 * v.1 + u.2.1 * v.2.1 + u.2.2 * v.2.2

/-- A row's argument: multiples of the mean longitudes of Jupiter, Saturn and Pluto, degrees (Meeus, chapter 37). -/
noncomputable def plutoAngle (t : ℝ) (r : Row) : ℝ :=
  (r.j * (34.35 + 3034.9057 * t) + r.s * (50.08 + 1222.1138 * t) + r.p * (238.96 + 144.96 * t)) * Real.pi / 180

/-- A periodic sum with the sine and cosine amplitudes `a` and `b`. -/
noncomputable def periodic (t : ℝ) (rows : List Row) (a b : Row → ℝ) : ℝ :=
  (rows.map fun r => a r * Real.sin (plutoAngle t r) + b r * Real.cos (plutoAngle t r)).sum

end Verif.Elp.Spec
