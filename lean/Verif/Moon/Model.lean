import Mathlib.Analysis.InnerProductSpace.PiL2
import Verif.Sky.Model
import Verif.Text.Model

/-
Model of `/repo/src/event/lunar/moon_cache.rs`: the tables behind every altitude search for the Moon
(positions in Chebyshev segments of four days, nutation at two-hour nodes) and the altitude computed
from them; and of the uncached chain `Moon::get_horizontal` (`lunar/moon_equations.rs` 77-170 with
`event/horizontal.rs` 93-218) it stands for.

Times, lengths and angles are real numbers. `x as usize` is the floor (zero for negative values);
saturation at 2⁶⁴ is not modelled. The crate `cheby` is a parameter: nodes, `fit_coeffs` and
`evaluate`. The lunar theory, the nutation series, precession, the rotation of the Earth and the
sidereal time are parameters. An index out of range is the outcome `panic`.
-/
namespace Verif.Moon
open Verif.Text (Res)
open Verif.Sky (atan2 remTau)

/-- Vectors with three components (`[f64; 3]`). -/
abbrev V := EuclideanSpace ℝ (Fin 3)

/-- `v[i]` of a `Vec`. -/
def index {α : Type} (l : List α) (i : Nat) : Res Unit α :=
  match l[i]? with
  | some x => .ok x
  | none => .panic

/-! ### Nutation -/

/-- moon_cache.rs 82: two hours. -/
noncomputable def nutStep : ℝ := 2 / 24

/-- moon_cache.rs 221-228. -/
structure NutCache where
  start : ℝ
  entries : Nat
  values : List (ℝ × ℝ × ℝ)

/-- moon_cache.rs 242-262; `nut` is `nutation_iau2000b` (Δψ, Δε, ε₀). -/
noncomputable def NutCache.new (nut : ℝ → ℝ × ℝ × ℝ) (a b : ℝ) : NutCache :=
  let t0 := a - 1
  let span := b + 1 - t0
  let n := ⌈span / nutStep⌉.toNat + 1
  ⟨t0, n, (List.range n).map fun i : Nat => nut (t0 + i * nutStep)⟩

/-- moon_cache.rs 275-298 with 322-326. -/
noncomputable def NutCache.get (nut : ℝ → ℝ × ℝ × ℝ) (c : NutCache) (t : ℝ) : Res Unit (ℝ × ℝ × ℝ) :=
  let offset := t - c.start
  if offset < 0 then .ok (nut t)
  else
    let frac := offset / nutStep
    let idx := ⌊frac⌋₊
    if c.entries ≤ idx + 1 then .ok (nut t)
    else
      let s := frac - idx
      (index c.values idx).bind fun a => (index c.values (idx + 1)).bind fun b =>
        .ok (a.1 + s * (b.1 - a.1), a.2.1 + s * (b.2.1 - a.2.1), a.2.2 + s * (b.2.2 - a.2.2))

/-! ### Positions -/

/-- The crate `cheby` for nine nodes: the nodes on [−1, 1], the coefficients from the values at the
nodes, and the value of a coefficient array. -/
structure Cheby where
  Coeffs : Type
  nodes : Fin 9 → ℝ
  fit : (Fin 9 → ℝ) → Coeffs
  evaluate : Coeffs → ℝ → ℝ

/-- moon_cache.rs 94-105. -/
structure PosCache (ch : Cheby) where
  start : ℝ
  segments : Nat
  cx : List ch.Coeffs
  cy : List ch.Coeffs
  cz : List ch.Coeffs

/-- moon_cache.rs 74: four days. -/
def segmentDays : ℝ := 4

/-- moon_cache.rs 134-158: one coordinate of one segment. -/
noncomputable def segmentFit (ch : Cheby) (f : ℝ → ℝ) (t0 : ℝ) (seg : Nat) : ch.Coeffs :=
  let mid := t0 + seg * segmentDays + segmentDays * (1 / 2)
  ch.fit fun k => f (mid + segmentDays * (1 / 2) * ch.nodes k)

/-- moon_cache.rs 122-168; `moon` is `DefaultEphemeris::moon_geocentric`. -/
noncomputable def PosCache.new (ch : Cheby) (moon : ℝ → V) (a b : ℝ) : PosCache ch :=
  let t0 := a - 1
  let span := b + 1 - t0
  let n := max ⌈span / segmentDays⌉.toNat 1
  ⟨t0, n, (List.range n).map (segmentFit ch (fun t => moon t 0) t0),
    (List.range n).map (segmentFit ch (fun t => moon t 1) t0),
    (List.range n).map (segmentFit ch (fun t => moon t 2) t0)⟩

/-- moon_cache.rs 182-206 with 209-213. -/
noncomputable def PosCache.get {ch : Cheby} (moon : ℝ → V) (c : PosCache ch) (t : ℝ) : Res Unit V :=
  let offset := t - c.start
  if offset < 0 then .ok (moon t)
  else
    let idx := ⌊offset / segmentDays⌋₊
    if c.segments ≤ idx then .ok (moon t)
    else
      let mid := c.start + idx * segmentDays + segmentDays * (1 / 2)
      let x := (t - mid) / (segmentDays * (1 / 2))
      (index c.cx idx).bind fun px => (index c.cy idx).bind fun py => (index c.cz idx).bind fun pz =>
        .ok !₂[ch.evaluate px x, ch.evaluate py x, ch.evaluate pz x]

/-! ### Altitude -/

/-- `affn::Rotation3::rx` and `rz` applied to a vector. -/
noncomputable def rx (θ : ℝ) (v : V) : V :=
  !₂[v 0, Real.cos θ * v 1 - Real.sin θ * v 2, Real.sin θ * v 1 + Real.cos θ * v 2]
noncomputable def rz (θ : ℝ) (v : V) : V :=
  !₂[Real.cos θ * v 0 - Real.sin θ * v 1, Real.sin θ * v 0 + Real.cos θ * v 1, v 2]

/-- moon_cache.rs 78-79: 84381.406 arc seconds. -/
noncomputable def obliquity : ℝ := 84381.406 / 3600 * Real.pi / 180

/-- moon_cache.rs 314-319, horizontal.rs 126-130. -/
noncomputable def nutationRotation (n : ℝ × ℝ × ℝ) (v : V) : V :=
  rx (n.2.2 + n.2.1) (rz n.1 (rx (-n.2.2) v))

/-- moon_cache.rs 458-473, horizontal.rs 189-210: the altitude of a true-of-date vector. -/
noncomputable def altitudeOf (lat lst : ℝ) (v : V) : ℝ :=
  let ra := atan2 (v 1) (v 0)
  let dec := atan2 (v 2) (Real.sqrt (v 0 * v 0 + v 1 * v 1))
  let ha := remTau (lst - ra)
  Real.arcsin (Real.sin dec * Real.sin lat + Real.cos dec * Real.cos lat * Real.cos ha)

/-- The models the chain calls: rotation from the Earth-fixed frame to J2000, precession matrix,
apparent sidereal time from Δψ and ε₀. -/
structure Chain where
  siteRotation : ℝ → V → V
  precession : ℝ → V → V
  gast : ℝ → ℝ → ℝ → ℝ

/-- moon_cache.rs 412-468 from the position and the nutation on; `site` in Earth-fixed kilometres. -/
noncomputable def altitudeFrom (ch : Chain) (site : V) (lat lon : ℝ) (t : ℝ) (pos : V)
    (nut : ℝ × ℝ × ℝ) : ℝ :=
  let topo := rx obliquity pos - ch.siteRotation t site
  let tod := nutationRotation nut (ch.precession t topo)
  altitudeOf lat (ch.gast t nut.1 nut.2.2 + lon) tod

/-- moon_cache.rs 369-389 and 405-474: the cached altitude at `t`, of a context built for the window
`[a, b]`. `nutB` is the series behind the table. -/
noncomputable def cachedAltitude (cheby : Cheby) (chain : Chain) (moon : ℝ → V)
    (nutB : ℝ → ℝ × ℝ × ℝ) (site : V) (lat lon a b t : ℝ) : Res Unit ℝ :=
  ((PosCache.new cheby moon a b).get moon t).bind fun pos =>
    ((NutCache.new nutB a b).get nutB t).bind fun nut =>
      .ok (altitudeFrom chain site lat lon t pos nut)

/-- lunar/altitude_periods.rs 56-64: the altitude without tables; `nut` is the nutation of the default
context. -/
noncomputable def directAltitude (chain : Chain) (moon : ℝ → V) (nut : ℝ → ℝ × ℝ × ℝ) (site : V)
    (lat lon t : ℝ) : ℝ := altitudeFrom chain site lat lon t (moon t) (nut t)

end Verif.Moon
