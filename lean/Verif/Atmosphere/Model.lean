import Mathlib.Analysis.SpecialFunctions.Pow.Real
import Mathlib.Analysis.SpecialFunctions.Trigonometric.Basic

/-!
Air mass, extinction, optical depth, scattering and airglow geometry (src/atmosphere/*.rs).

Simplification: real arithmetic instead of `f64`. Only the airglow function looks at non-finite numbers; its
arguments are given as `none` when not finite. Ozone and the tabulated phase functions, which are grids of the
external `optica` crate, are not modelled, nor are the provenance records.
-/
namespace Verif.Atmosphere

/-! ### Air mass -/

/-- `PlaneParallel::airmass` (src/atmosphere/airmass.rs 66-68). -/
noncomputable def planeParallel (z : ℝ) : ℝ := 1 / Real.cos z

/-- `Young1994::airmass` (src/atmosphere/airmass.rs 82-87). -/
noncomputable def young (z : ℝ) : ℝ :=
  let c := Real.cos z
  let num := 1.002432 * c * c + 0.148386 * c + 0.0096467
  let den := c * c * c + 0.149864 * c * c + 0.0102963 * c + 0.000303978
  num / den

/-- `Rozenberg1966::airmass` (src/atmosphere/airmass.rs 101-104). -/
noncomputable def rozenberg (z : ℝ) : ℝ :=
  let c := Real.cos z
  1 / (c + 0.025 * Real.exp (-11 * c))

/-- `KrisciunasSchaefer1991::airmass` (src/atmosphere/airmass.rs 120-123). -/
noncomputable def krisciunasSchaefer (z : ℝ) : ℝ :=
  let s := Real.sin z
  (1 - 0.96 * s * s) ^ (-0.5 : ℝ)

/-- The formula markers (src/atmosphere/airmass.rs 60, 76, 95, 114). -/
inductive Formula where
  | planeParallel
  | young
  | rozenberg
  | krisciunasSchaefer

/-- `airmass` (src/atmosphere/airmass.rs 160-162). -/
noncomputable def airmass : Formula → ℝ → ℝ
  | .planeParallel => Atmosphere.planeParallel
  | .young => Atmosphere.young
  | .rozenberg => Atmosphere.rozenberg
  | .krisciunasSchaefer => Atmosphere.krisciunasSchaefer

/-- `DefaultAirmassFormula` (src/atmosphere/airmass.rs 128). -/
def defaultFormula : Formula := .krisciunasSchaefer

/-! ### Extinction -/

/-- `transmission` (src/atmosphere/extinction.rs 34-36). -/
noncomputable def transmission (tau x : ℝ) : ℝ := Real.exp (-tau * x)

/-! ### Optical depth -/

/-- The Bodhaine quotient for a sea-level column (src/atmosphere/rayleigh.rs 84-88), wavelength in micrometres. -/
noncomputable def tauSea (um : ℝ) : ℝ :=
  let l2 := um * um
  let inv := 1 / l2
  0.0021520 * (1.0455996 - 341.29061 * inv - 0.90230850 * l2) / (1 + 0.0027059889 * inv - 85.968563 * l2)

/-- `rayleigh_optical_depth_bodhaine99` (src/atmosphere/rayleigh.rs 73-91): nanometres, hectopascals, kilometres. -/
noncomputable def rayleigh (nm pressure altitude scale : ℝ) : ℝ :=
  let um := nm / 1000
  let pAtm := pressure / 1013.25
  let heightFactor := Real.exp (-altitude / scale)
  pAtm * tauSea um * heightFactor

/-- `rayleigh_phase` (src/atmosphere/rayleigh.rs 98-101). -/
noncomputable def rayleighPhase (theta : ℝ) : ℝ :=
  let c := Real.cos theta
  3 / (16 * Real.pi) * (1 + c * c)

/-- `MieParams` (src/atmosphere/mie.rs 56-65). -/
structure Mie where
  tau0 : ℝ
  alpha : ℝ
  lambdaRef : ℝ

/-- `mie_optical_depth` (src/atmosphere/mie.rs 197-200). -/
noncomputable def mieDepth (p : Mie) (nm : ℝ) : ℝ := p.tau0 * (nm / p.lambdaRef) ^ p.alpha

/-- `AtmosphereProfile` (src/atmosphere/profile.rs 59-68). -/
structure Profile where
  pressure : ℝ
  altitude : ℝ
  scale : ℝ
  mie : Mie

/-- `AtmosphereProfile::optical_depth` (src/atmosphere/profile.rs 113-122). -/
noncomputable def Profile.depth (p : Profile) (nm : ℝ) : ℝ :=
  let tauR := rayleigh nm p.pressure p.altitude p.scale
  let tauM := mieDepth p.mie nm
  tauR + tauM

/-- `AtmosphereProfile::transmission` (src/atmosphere/profile.rs 126-128). -/
noncomputable def Profile.transmission (p : Profile) (nm x : ℝ) : ℝ := Atmosphere.transmission (p.depth nm) x

/-- `AtmosphereProfile::EL_PARANAL` (src/atmosphere/profile.rs 74-79, src/atmosphere/mie.rs 72-76). -/
noncomputable def elParanal : Profile := ⟨744, 2.635, 8, ⟨0.05, -1.38, 550⟩⟩

/-- `ROQUE_DE_LOS_MUCHACHOS` (src/atmosphere/profile.rs 84-89, src/atmosphere/mie.rs 86-90). -/
noncomputable def roque : Profile := ⟨770, 2.396, 8, ⟨0.02, -1.38, 550⟩⟩

/-- `MAUNA_KEA` (src/atmosphere/profile.rs 94-99, src/atmosphere/mie.rs 98-102). -/
noncomputable def maunaKea : Profile := ⟨615, 4.205, 8, ⟨0.03, -1.38, 550⟩⟩

/-- `LA_SILLA` (src/atmosphere/profile.rs 104-109, src/atmosphere/mie.rs 110-114). -/
noncomputable def laSilla : Profile := ⟨770, 2.400, 8, ⟨0.04, -1.38, 550⟩⟩

/-! ### Airglow -/

/-- An `f64` outcome. -/
inductive Out where
  | num (v : ℝ)
  | inf
  | nan

/-- `van_rhijn_factor_with_radius` (src/atmosphere/airglow.rs 59-78); `none` for an argument that is not finite. -/
noncomputable def vanRhijnWith (zenith height radius : Option ℝ) : Out :=
  match zenith, height, radius with
  | some z, some h, some r =>
    open Classical in
    if h ≤ 0 ∨ r ≤ 0 then .nan
    else
      let ratio := r / (r + h)
      let s := Real.sin z
      let inner := 1 - (ratio * s) * (ratio * s)
      if inner ≤ 0 then .inf else .num (1 / Real.sqrt inner)
  | _, _, _ => .nan

/-- `van_rhijn_factor` (src/atmosphere/airglow.rs 47-56), with the radius of the Earth of src/bodies/solar_system.rs 313. -/
noncomputable def vanRhijn (zenith height : Option ℝ) : Out := vanRhijnWith zenith height (some 6371)

end Verif.Atmosphere
