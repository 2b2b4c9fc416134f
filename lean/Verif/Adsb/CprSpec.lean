import Verif.Adsb.Model

/-!
CPR encoding as the standard defines it (DO-260B §2.2.3.2.3.7 / Appendix A.1.7, airborne format,
17 bits), independent of the decoder in the code.
-/
namespace Verif.Adsb.Spec

/-- `MOD(x, y) = x - y ⌊x / y⌋` of A.1.7.2 (y > 0). -/
noncomputable def MOD (x y : ℝ) : ℝ := x - y * (⌊x / y⌋ : ℤ)

/-- Number of longitude zones (A.1.7.2 d), with the values the standard fixes at 0 and ±87. -/
noncomputable def NL (lat : ℝ) : ℤ :=
  if 87 < |lat| then 1
  else if |lat| = 87 then 2
  else if lat = 0 then 59
  else ⌊2 * Real.pi / Real.arccos (1 - (1 - Real.cos (Real.pi / (2 * 15))) /
    Real.cos (Real.pi / 180 * |lat|) ^ 2)⌋

/-- `i` is 0 for an even and 1 for an odd message. -/
def parity (odd : Bool) : ℤ := if odd then 1 else 0

/-- Latitude zone size. -/
noncomputable def Dlat (odd : Bool) : ℝ := 360 / (60 - (parity odd : ℝ))

/-- `YZ = ⌊2^17 MOD(lat, Dlat)/Dlat + 1/2⌋`; the same expression gives `XZ`. -/
noncomputable def Z (D x : ℝ) : ℤ := ⌊2 ^ 17 * MOD x D / D + 1 / 2⌋

/-- `Rlat = Dlat (YZ / 2^17 + ⌊lat/Dlat⌋)`: the position a receiver extracts (also for longitude). -/
noncomputable def R (D x : ℝ) : ℝ := D * ((Z D x : ℝ) / 2 ^ 17 + (⌊x / D⌋ : ℤ))

/-- Transmitted 17-bit field: `MOD(YZ, 2^17)`. -/
noncomputable def tx (D x : ℝ) : ℕ := ((Z D x) % 2 ^ 17).toNat

noncomputable def Rlat (odd : Bool) (lat : ℝ) : ℝ := R (Dlat odd) lat

/-- Longitude zones of a message: `max (NL(Rlat) - i, 1)`. -/
noncomputable def lonZones (odd : Bool) (lat : ℝ) : ℤ := max (NL (Rlat odd lat) - parity odd) 1

noncomputable def Dlon (odd : Bool) (lat : ℝ) : ℝ := 360 / (lonZones odd lat : ℝ)

noncomputable def Rlon (odd : Bool) (lat lon : ℝ) : ℝ := R (Dlon odd lat) lon

noncomputable def txLat (odd : Bool) (lat : ℝ) : ℕ := tx (Dlat odd) lat
noncomputable def txLon (odd : Bool) (lat lon : ℝ) : ℕ := tx (Dlon odd lat) lon

/-- Same longitude: equal up to whole turns. -/
def SameLon (a b : ℝ) : Prop := ∃ k : ℤ, a = b + 360 * k

end Verif.Adsb.Spec
