import Verif.Sky.Model
import Verif.CSky.Model
import Verif.Ffi.Model
import Verif.Bodies.Model
import Verif.Atmosphere.Model

/-
The named observatories (src/catalogs/observatories.rs) and their functions of the C interface
(siderust-ffi/src/observatories.rs, coordinates.rs 911-938), and the twilight functions of the C interface
(siderust-ffi/src/twilight.rs). Exact real arithmetic; a null pointer is a flag; `affn`'s `Geodetic::new` and
`to_cartesian` are parameters.
-/
namespace Verif.Sites
open Verif.Ffi (Status)
open Verif.CSky (Num)
open Verif.Sky (Twilight)

/-! ### Sites -/

/-- Longitude and latitude in degrees, height in metres: `SiderustGeodetict` (siderust-ffi/src/types.rs 433-443) and
`Geodetic<ECEF>`. -/
structure Geo (α : Type) where
  lon : α
  lat : α
  height : α

/-- `Observatory` (src/catalogs/observatories.rs 73-96). -/
structure Observatory where
  name : String
  geodetic : Geo ℝ
  pressure : ℝ
  temperature : Option ℝ
  humidity : Option ℝ

/-- `ROQUE_DE_LOS_MUCHACHOS` (src/catalogs/observatories.rs 116-126). -/
noncomputable def roque : Observatory :=
  ⟨"Roque de los Muchachos Observatory", ⟨-17.8925, 28.7543, 2396⟩, 744, none, none⟩

/-- `EL_PARANAL` (src/catalogs/observatories.rs 136-146). -/
noncomputable def paranal : Observatory :=
  ⟨"El Paranal Observatory", ⟨-70.4043, -24.6272, 2635⟩, 744, none, none⟩

/-- `MAUNA_KEA` (src/catalogs/observatories.rs 159-169). -/
noncomputable def maunaKea : Observatory :=
  ⟨"Mauna Kea Observatory", ⟨-155.4681, 19.8207, 4207⟩, 614, none, none⟩

/-- `LA_SILLA_OBSERVATORY` (src/catalogs/observatories.rs 182-192). -/
noncomputable def laSilla : Observatory :=
  ⟨"La Silla Observatory", ⟨-70.7346, -29.2584, 2400⟩, 744, none, none⟩

/-- The function named after a site; they differ only in the constant they copy. `siderust_observatory_*`
(siderust-ffi/src/observatories.rs 12-73), `SiderustGeodetict::from_rust` (types.rs 456-462). -/
def siteC (o : Observatory) (out : Bool) : Status × Option (Geo ℝ) :=
  if out then (.ok, some ⟨o.geodetic.lon, o.geodetic.lat, o.geodetic.height⟩) else (.nullPointer, none)

/-- `siderust_observatory_roque_de_los_muchachos` (siderust-ffi/src/observatories.rs 12-26). -/
noncomputable def roqueC := siteC roque
/-- `siderust_observatory_el_paranal` (30-42). -/
noncomputable def paranalC := siteC paranal
/-- `siderust_observatory_mauna_kea` (46-58). -/
noncomputable def maunaKeaC := siteC maunaKea
/-- `siderust_observatory_la_silla` (62-74). -/
noncomputable def laSillaC := siteC laSilla

/-- `siderust_geodetic_new` (siderust-ffi/src/observatories.rs 78-98). -/
def geodeticNew (lon lat height : Num) (out : Bool) : Status × Option (Geo Num) :=
  if out then (.ok, some ⟨lon, lat, height⟩) else (.nullPointer, none)

/-- `SiderustCartesianPos` (siderust-ffi/src/types.rs), the labels by their codes. -/
structure CPos (α : Type) where
  x : α
  y : α
  z : α
  frame : Int
  center : Int
  unit : Int

/-- `siderust_geodetic_to_cartesian_ecef` (siderust-ffi/src/coordinates.rs 911-938); `conv` is `Geodetic::new` followed by
`to_cartesian::<Meter>` of `affn`. The codes are those of `ECEF`, `Geocentric` and `Meter`. -/
def toEcef (conv : Geo Num → Num × Num × Num) (g : Geo Num) (out : Bool) : Status × Option (CPos Num) :=
  if out then
    let c := conv g
    (.ok, some ⟨c.1, c.2.1, c.2.2, 7, 3, 4⟩)
  else (.nullPointer, none)

/-! ### Twilight -/

/-- `a > c` for any `f64` and a finite constant. -/
noncomputable def gt (a : Num) (c : ℝ) : Bool :=
  match a with
  | .fin x => decide (c < x)
  | .pinf => true
  | .ninf => false
  | .nan => false

/-- `twilight_classification` (src/event/solar/classification.rs 131-147) of an altitude in degrees. -/
noncomputable def classify (alt : Num) : Twilight :=
  if gt alt 0 then .day
  else if gt alt (-6) then .civil
  else if gt alt (-12) then .nautical
  else if gt alt (-18) then .astronomical
  else .dark

/-- `SiderustTwilightPhase::from_rust` (siderust-ffi/src/twilight.rs 40-48) and the codes (23-34). -/
def phaseCode : Twilight → Int
  | .day => 0
  | .civil => 1
  | .nautical => 2
  | .astronomical => 3
  | .dark => 4

/-- `Quantity::to::<Deg>` of an angle in radians. -/
noncomputable def toDeg : Num → Num
  | .fin x => .fin (Sky.toDeg x)
  | n => n

/-- `siderust_twilight_classification_deg` (siderust-ffi/src/twilight.rs 58-69). -/
noncomputable def twilightDeg (alt : Num) (out : Bool) : Status × Option Int :=
  if out then (.ok, some (phaseCode (classify alt))) else (.nullPointer, none)

/-- `siderust_twilight_classification_rad` (siderust-ffi/src/twilight.rs 76-87). -/
noncomputable def twilightRad (alt : Num) (out : Bool) : Status × Option Int :=
  if out then (.ok, some (phaseCode (classify (toDeg alt)))) else (.nullPointer, none)

end Verif.Sites
