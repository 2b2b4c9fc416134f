import Verif.Sp3.Write
import Verif.Ccsds.Write

/-!
# Products of an orbit determination run

Model of `src/pod/product/orbit.rs`, `residuals_csv.rs`, `residuals_parquet.rs` and of
`src/pod/run/manifest.rs` 15-48.

The writers of the two orbit formats are those of `Verif.Sp3` and `Verif.Ccsds`. The conversion of an
epoch to a Julian date of terrestrial time and to an instant of UTC belongs to `tempoch` and is a
parameter. Numbers of orbit states are finite.
-/

namespace Verif.Product

open Verif.Text
open Verif.Sp3 (fmtF64)

/-! ## Orbits -/

/-- The orbit state (`OrbitState`, in km and km/s of GCRS) as the writers use it. -/
structure Orbit (E : Type) where
  epoch : E
  x : ℚ
  y : ℚ
  z : ℚ
  vx : ℚ
  vy : ℚ
  vz : ℚ

/-- The header of the SP3 product (orbit.rs:77-93). -/
def sp3Header (sat : Str) (n : Nat) : List Str :=
  ["#dP2024  1  1  0  0  0.00000000      ".toList ++ (padLeft ' ' 5 (natStr n) ++ " ORBIT IGS20 HLM  POD".toList),
   "##  2295      0.00000000   900.00000000 60310 0.0000000000000".toList,
   "+    1   ".toList ++ (padRight 3 sat ++ List.replicate 53 ' '),
   "++         5                                                                  ".toList,
   "%c L  cc GPS ccc cccc cccc cccc cccc ccccc ccccc ccccc ccccc".toList,
   "%c cc cc ccc ccc cccc cccc cccc cccc ccccc ccccc ccccc ccccc".toList,
   "%f  1.2500000  1.025000000  0.00000000000  0.000000000000000".toList,
   "%f  0.0000000  0.000000000  0.00000000000  0.000000000000000".toList,
   "%i    0    0    0    0      0      0      0      0         0".toList,
   "%i    0    0    0    0      0      0      0      0         0".toList,
   "/* siderust orbit product".toList]

/-- One epoch of the SP3 product (orbit.rs:96-117). -/
def sp3Epoch {E T : Type} (utc : E → T) (sat : Str) (s : Orbit E) : Sp3.Epoch T :=
  ⟨utc s.epoch, [⟨sat, .num s.x, .num s.y, .num s.z, .num (999999999999 / 1000000)⟩]⟩

/-- `write_sp3_from_states` (orbit.rs:72-121). -/
def writeSp3 {E T : Type} (env : Sp3.Env T) (utc : E → T) (sat : Str) (states : List (Orbit E)) : Sp3.R Str :=
  Sp3.writeSp3 env ⟨sp3Header sat states.length, states.map (sp3Epoch utc sat)⟩

/-- The metadata of the OEM product (orbit.rs:154-160). -/
def oemMeta (id name : Str) : Ccsds.Meta :=
  ⟨id, name, "EME2000".toList, "TT".toList, "EARTH".toList⟩

/-- One state of the OEM product (orbit.rs:161-178). -/
def oemState {E : Type} (jd : E → ℚ) (s : Orbit E) : Ccsds.State :=
  ⟨jd s.epoch, s.x, s.y, s.z, s.vx, s.vy, s.vz⟩

/-- `write_oem_from_states` (orbit.rs:148-180). -/
def writeOem {E : Type} (jd : E → ℚ) (id name : Str) (states : List (Orbit E)) : Ccsds.R Str :=
  Ccsds.writeOem (oemMeta id name) (states.map (oemState jd))

/-- A spacecraft state: the orbit and the properties of the spacecraft (state.rs). -/
structure Craft (E P : Type) where
  orbit : Orbit E
  properties : P

/-- `OemProductWriter::write_from_states` (orbit.rs:344-352) on a file with contents `old`: the file is
created or cut to nothing before the writer is called, which writes nothing when it refuses. Answers the
result and the contents of the file afterwards. -/
def oemFile {E P : Type} (jd : E → ℚ) (id name : Str) (_old : Option Str) (states : List (Craft E P)) :
    Ccsds.R Unit × Str :=
  match writeOem jd id name (states.map Craft.orbit) with
  | .ok text => (.ok (), text)
  | .err e => (.err e, [])
  | .panic => (.panic, [])

/-! ## Residuals -/

/-- residuals_csv.rs:55-68. -/
structure Residual where
  epoch : F64
  obsType : Str
  satellite : Str
  residual : F64
  sigma : F64
  rejected : Bool
deriving DecidableEq

/-- residuals_csv.rs:107-114. -/
def csvHeader : Str := "epoch_jd_tt,obs_type,satellite,residual_m,sigma_m,rejected".toList

/-- Display of a `bool`. -/
def boolStr (b : Bool) : Str := if b then "true".toList else "false".toList

/-- The line of `write_record` (residuals_csv.rs:124-132). -/
def csvRow (r : Residual) : Str :=
  fmtF64 9 r.epoch ++ ',' :: (r.obsType ++ ',' :: (r.satellite ++ ',' :: (fmtF64 6 r.residual ++ ',' ::
    (fmtF64 6 r.sigma ++ ',' :: boolStr r.rejected))))

/-- `ResidualCsvWriter::new` and `write_record` on the bytes written so far. -/
def csvNew : Str := csvHeader ++ ['\n']
def csvWrite (out : Str) (r : Residual) : Str := out ++ (csvRow r ++ ['\n'])

/-- The file after all records. -/
def csvFile (rs : List Residual) : Str := rs.foldl csvWrite csvNew

/-- The values of a column of the table (residuals_parquet.rs:147-154). -/
inductive Column
  | doubles (name : String) (values : List F64)
  | texts (name : String) (values : List Str)
  | flags (name : String) (values : List Bool)
deriving DecidableEq

/-- The columns of `ResidualParquetWriter::finish` (residuals_parquet.rs:146-268) in the order written. -/
def columns (rs : List Residual) : List Column :=
  [.doubles "epoch_jd_tt" (rs.map (·.epoch)), .texts "obs_type" (rs.map (·.obsType)),
   .texts "satellite" (rs.map (·.satellite)), .doubles "residual_m" (rs.map (·.residual)),
   .doubles "sigma_m" (rs.map (·.sigma)), .flags "rejected" (rs.map (·.rejected))]

/-! ## Run manifests -/

/-- run/dataset.rs:15-26; the key of the sort, kind and path, is of an ordered type. -/
structure Dataset (K : Type) where
  key : K
  bytes : Nat
  sha256 : Str
deriving DecidableEq

/-- run/manifest.rs:15-32. -/
structure Manifest (K : Type) where
  runId : Str
  toolVersion : Str
  configSha256 : Str
  inputs : List (Dataset K)
  outputs : List (Dataset K)
  startedAt : Str
  finishedAt : Str
deriving DecidableEq

/-- `sort_by_key` is a stable sort. -/
def sortByKey {K : Type} [LinearOrder K] (l : List (Dataset K)) : List (Dataset K) :=
  l.mergeSort (fun a b => decide (a.key ≤ b.key))

/-- `RunManifest::canonicalize` (run/manifest.rs:36-40). -/
def canonicalize {K : Type} [LinearOrder K] (m : Manifest K) : Manifest K :=
  { m with inputs := sortByKey m.inputs, outputs := sortByKey m.outputs }

/-- `RunManifest::to_json_pretty` (run/manifest.rs:44-48); `json` is `serde_json::to_string_pretty`. -/
def toJson {K : Type} [LinearOrder K] (json : Manifest K → Str) (m : Manifest K) : Str :=
  json (canonicalize m)

end Verif.Product
