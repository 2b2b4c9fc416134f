import Mathlib.Algebra.Module.Basic
import Mathlib.Algebra.Field.Rat
import Mathlib.Data.List.Basic

/-!
# Model of the C interface (`siderust-ffi`)

Covers the shared call discipline (panic guard, null checks, arrays and opaque
handles handed to the caller and released later), the enumeration tables, the
unified subject dispatch and search calls, the centre shifts and body-centric
conversions, and the packing of horizontal directions.

Simplifications.  Memory is a map from addresses to words or records plus a
list of live heap blocks; an address is a natural number and `0` is the null
pointer.  The allocator is a parameter.  Releasing a block that is not live
with that address and length is undefined behaviour in Rust and is the outcome
`none` here.  Astronomical computations are parameters; coordinates live in
an arbitrary rational vector space.  An enumeration argument holding a value
outside its table is undefined behaviour in the C ABI and not modelled.
-/

namespace Verif.Ffi

/-! ## Status codes -/

/-- `siderust-ffi/src/error.rs` 11-51: `SiderustStatus`. -/
inductive Status
  | ok | nullPointer | invalidFrame | invalidCenter | transformFailed | invalidBody
  | unknownStar | invalidPeriod | allocationFailed | invalidArgument | internalPanic
  | dataError | invalidDimension | outOfRange | noEopData
  deriving DecidableEq, Repr

/-- `error.rs` 11-51: the discriminants. -/
def Status.code : Status → Int
  | .ok => 0 | .nullPointer => 1 | .invalidFrame => 2 | .invalidCenter => 3
  | .transformFailed => 4 | .invalidBody => 5 | .unknownStar => 6 | .invalidPeriod => 7
  | .allocationFailed => 8 | .invalidArgument => 9 | .internalPanic => 10 | .dataError => 11
  | .invalidDimension => 12 | .outOfRange => 13 | .noEopData => 14

/-! ## Enumeration tables -/

/-- One line of an `ffi_enum!` table: variant, discriminant, accepted names
(the first one is canonical; empty for the form without names). -/
structure Row where
  variant : String
  code : Int
  names : List String
  deriving DecidableEq, Repr

/-- `ffi_utils.rs` 341-346 and 392-397: `from_raw`, a `match` on the raw code in
table order. -/
def fromRaw (t : List Row) (raw : Int) : Option String :=
  match t with
  | [] => none
  | r :: rest => if raw = r.code then some r.variant else fromRaw rest raw

/-- `str::to_ascii_lowercase`. -/
def asciiLower (s : String) : String :=
  String.ofList (s.toList.map fun c =>
    if 65 ≤ c.toNat ∧ c.toNat ≤ 90 then Char.ofNat (c.toNat + 32) else c)

/-- The `match lower.as_str()` of `parse_name`. -/
def matchName (t : List Row) (lower : String) : Option String :=
  match t with
  | [] => none
  | r :: rest => if lower ∈ r.names then some r.variant else matchName rest lower

/-- `ffi_utils.rs` 351-357: `parse_name`. -/
def parseName (t : List Row) (s : String) : Option String := matchName t (asciiLower s)

/-- `ffi_utils.rs` 360-364: `as_str` (only for the form with names). -/
def asStr (t : List Row) (variant : String) : Option String :=
  match t with
  | [] => none
  | r :: rest => if variant = r.variant then r.names.head? else asStr rest variant

/-- The discriminant of a variant (`$Variant = $disc`, `ffi_utils.rs` 328-333). -/
def codeOf (t : List Row) (variant : String) : Option Int :=
  match t with
  | [] => none
  | r :: rest => if variant = r.variant then some r.code else codeOf rest variant

/-- `types.rs` 78-116. -/
def frameTable : List Row := [
  ⟨"ICRS", 1, ["icrs"]⟩,
  ⟨"EclipticMeanJ2000", 2, ["ecliptic_mean_j2000", "eclipticmeanj2000", "mean_ecliptic_j2000"]⟩,
  ⟨"EquatorialMeanJ2000", 3,
    ["equatorial_mean_j2000", "equatorialmeanj2000", "mean_equatorial_j2000"]⟩,
  ⟨"EquatorialMeanOfDate", 4,
    ["equatorial_mean_of_date", "equatorialmeanofdate", "mean_of_date"]⟩,
  ⟨"EquatorialTrueOfDate", 5,
    ["equatorial_true_of_date", "equatorialtrueofdate", "true_of_date"]⟩,
  ⟨"Horizontal", 6, ["horizontal", "altaz", "local_horizontal"]⟩,
  ⟨"ECEF", 7, ["ecef", "earth_fixed"]⟩,
  ⟨"Galactic", 8, ["galactic", "gal"]⟩,
  ⟨"GCRS", 9, ["gcrs", "geocentric_celestial"]⟩,
  ⟨"EclipticOfDate", 10, ["ecliptic_of_date", "eclipticofdate"]⟩,
  ⟨"EclipticTrueOfDate", 11, ["ecliptic_true_of_date", "ecliptictrueofdate"]⟩,
  ⟨"CIRS", 12, ["cirs", "celestial_intermediate"]⟩,
  ⟨"TIRS", 13, ["tirs", "terrestrial_intermediate"]⟩,
  ⟨"ITRF", 14, ["itrf", "terrestrial_reference"]⟩,
  ⟨"ICRF", 15, ["icrf", "celestial_reference"]⟩]

/-- `types.rs` 118-132. -/
def centerTable : List Row := [
  ⟨"Barycentric", 1, ["barycentric", "ssb", "solar_system_barycenter"]⟩,
  ⟨"Heliocentric", 2, ["heliocentric", "solar", "sun"]⟩,
  ⟨"Geocentric", 3, ["geocentric", "earth"]⟩,
  ⟨"Topocentric", 4, ["topocentric", "observer", "site"]⟩,
  ⟨"Bodycentric", 5, ["bodycentric", "body"]⟩]

/-- `types.rs` 134-142. -/
def crossingDirectionTable : List Row := [⟨"Rising", 0, []⟩, ⟨"Setting", 1, []⟩]

/-- `types.rs` 144-152. -/
def culminationKindTable : List Row := [⟨"Max", 0, []⟩, ⟨"Min", 1, []⟩]

/-- `types.rs` 154-170. -/
def asteroidClassTable : List Row := [
  ⟨"MainBelt", 0, []⟩, ⟨"NearEarth", 1, []⟩, ⟨"Trojan", 2, []⟩, ⟨"Centaur", 3, []⟩,
  ⟨"TransNeptunian", 4, []⟩, ⟨"DwarfPlanet", 5, []⟩]

/-- `types.rs` 172-180. -/
def orbitFrameTable : List Row := [⟨"Heliocentric", 0, []⟩, ⟨"Barycentric", 1, []⟩]

/-- `types.rs` 182-199. -/
def lengthUnitTable : List Row := [
  ⟨"AU", 0, []⟩, ⟨"Km", 1, []⟩, ⟨"LightYear", 2, []⟩, ⟨"Parsec", 3, []⟩, ⟨"Meter", 4, []⟩]

/-- `types.rs` 208-232. -/
def bodyTable : List Row := [
  ⟨"Sun", 0, []⟩, ⟨"Moon", 1, []⟩, ⟨"Mercury", 2, []⟩, ⟨"Venus", 3, []⟩, ⟨"Mars", 4, []⟩,
  ⟨"Jupiter", 5, []⟩, ⟨"Saturn", 6, []⟩, ⟨"Uranus", 7, []⟩, ⟨"Neptune", 8, []⟩]

/-- `types.rs` 234-246. -/
def subjectKindTable : List Row := [
  ⟨"Body", 0, []⟩, ⟨"Star", 1, []⟩, ⟨"Icrs", 2, []⟩, ⟨"GenericTarget", 3, []⟩]

/-- `types.rs` 346-354. -/
def raConventionTable : List Row := [⟨"MuAlpha", 0, []⟩, ⟨"MuAlphaStar", 1, []⟩]

/-- `types.rs` 356-368. -/
def earthOrientationTable : List Row := [
  ⟨"Iau2000A", 0, ["iau2000a"]⟩, ⟨"Iau2000B", 1, ["iau2000b"]⟩,
  ⟨"Iau2006", 2, ["iau2006"]⟩, ⟨"Iau2006A", 3, ["iau2006a"]⟩]

/-- `types.rs` 370-382. -/
def targetKindTable : List Row := [
  ⟨"SphericalDir", 0, []⟩, ⟨"SphericalPos", 1, []⟩, ⟨"CartesianPos", 2, []⟩]

/-- `twilight.rs` 14-35. -/
def twilightTable : List Row := [
  ⟨"Day", 0, ["day"]⟩, ⟨"Civil", 1, ["civil"]⟩, ⟨"Nautical", 2, ["nautical"]⟩,
  ⟨"Astronomical", 3, ["astronomical"]⟩, ⟨"Dark", 4, ["dark", "night"]⟩]

/-- Every enumeration declared with `ffi_enum!`. -/
def tables : List (List Row) :=
  [frameTable, centerTable, crossingDirectionTable, culminationKindTable, asteroidClassTable,
   orbitFrameTable, lengthUnitTable, bodyTable, subjectKindTable, raConventionTable,
   earthOrientationTable, targetKindTable, twilightTable]

/-! ## Memory and calls -/

/-- An address; `0` is the null pointer. -/
abbrev Addr := Nat

/-- What a caller-supplied output cell can hold: a word (pointer or count) or a
record. -/
inductive Cell (α : Type)
  | word (n : Nat)
  | record (a : α)
  deriving DecidableEq

/-- Output cells of the caller and live heap blocks owned by the library
(address and contents). -/
structure Mem (α : Type) where
  cells : Addr → Option (Cell α)
  heap : List (Addr × List α)

/-- `*p = c`. -/
def Mem.store {α : Type} (m : Mem α) (p : Addr) (c : Cell α) : Mem α :=
  { m with cells := fun q => if q = p then some c else m.cells q }

/-- The allocator: an address for a new block, and the dangling address of an
empty boxed slice. -/
structure Alloc where
  fresh : List Addr → Addr
  dangling : Addr

/-- Outcome of a function body: it returned a status, or it panicked. -/
inductive Out (α : Type)
  | ret (s : Status) (m : Mem α)
  | panic (m : Mem α)

/-- `ffi_utils.rs` 29-37: `ffi_guard!`. -/
def guard {α : Type} : Out α → Status × Mem α
  | .ret s m => (s, m)
  | .panic m => (.internalPanic, m)

/-- `ffi_utils.rs` 258-265: `write_out`. -/
def writeOut {α : Type} (out : Addr) (v : α) (m : Mem α) : Status × Mem α :=
  if out = 0 then (.nullPointer, m) else (.ok, m.store out (.record v))

/-- `Box::into_raw(v.into_boxed_slice())`: an empty slice does not allocate. -/
def boxSlice {α : Type} (A : Alloc) (v : List α) (m : Mem α) : Addr × Mem α :=
  if v = [] then (A.dangling, m)
  else
    let p := A.fresh (m.heap.map Prod.fst)
    (p, { m with heap := (p, v) :: m.heap })

/-- `ffi_utils.rs` 415-436: `vec_to_c`. -/
def vecToC {ρ α : Type} (A : Alloc) (items : List ρ) (conv : ρ → α) (out count : Addr)
    (m : Mem α) : Status × Mem α :=
  if out = 0 ∨ count = 0 then (.nullPointer, m)
  else
    let v := items.map conv
    let len := v.length
    let (p, m1) := boxSlice A v m
    (.ok, (m1.store out (.word p)).store count (.word len))

/-- `Box::from_raw(slice_from_raw_parts_mut(ptr, count))` then drop: defined only
for a live block with exactly this address and length. -/
def dropBlock {α : Type} (p n : Nat) : List (Addr × List α) → Option (List (Addr × List α))
  | [] => none
  | b :: rest =>
      if b.1 = p then (if b.2.length = n then some rest else none)
      else (dropBlock p n rest).map (b :: ·)

/-- `ffi_utils.rs` 447-453: `free_boxed_slice`; `none` is undefined behaviour. -/
def freeSlice {α : Type} (p n : Nat) (m : Mem α) : Option (Mem α) :=
  if p ≠ 0 ∧ n > 0 then (dropBlock p n m.heap).map fun h => { m with heap := h } else some m

/-- `oem.rs` 71-121: `siderust_oem_parse_str` with the decoded text and the reader
as parameters (`text = none` is invalid UTF-8, `read` returns the states of all
segments or an error). -/
def oemParse {α : Type} (A : Alloc) (text : Addr) (utf8 : Option String)
    (read : String → Option (List α)) (out count : Addr) (m : Mem α) : Status × Mem α :=
  guard <|
    if text = 0 then .ret .nullPointer m
    else if out = 0 ∨ count = 0 then .ret .nullPointer m
    else match utf8 with
      | none => .ret .invalidArgument m
      | some s => match read s with
        | none => .ret .invalidArgument m
        | some states =>
            let n := states.length
            let (p, m1) := if states = [] then (0, m) else boxSlice A states m
            .ret .ok ((m1.store out (.word p)).store count (.word n))

/-- `oem.rs` 131-140: `siderust_oem_states_free`. -/
def oemFree {α : Type} (p n : Nat) (m : Mem α) : Option (Mem α) :=
  if p = 0 ∨ n = 0 then some m else (dropBlock p n m.heap).map fun h => { m with heap := h }

/-- Handle creation (`bodies.rs` 36-72 `siderust_star_catalog`, `target.rs` 184-204,
`sgp4.rs` 184-209): check the output pointer, build the value, box it. -/
def handleCreate {α : Type} (A : Alloc) (out : Addr) (build : Unit → Option (Except Status α))
    (m : Mem α) : Status × Mem α :=
  guard <|
    if out = 0 then .ret .nullPointer m
    else match build () with
      | none => .panic m
      | some (.error e) => .ret e m
      | some (.ok v) =>
          let (p, m1) := boxSlice A [v] m
          .ret .ok (m1.store out (.word p))

/-- `bodies.rs` 148-155 `siderust_star_free`, `target.rs` 271-275: release a handle. -/
def handleFree {α : Type} (p : Addr) (m : Mem α) : Option (Mem α) :=
  if p ≠ 0 then (dropBlock p 1 m.heap).map fun h => { m with heap := h } else some m

/-- `bodies.rs` 159-184: `siderust_star_name`; the buffer is the list of bytes the
caller owns, `buf_len` its declared length.  Returns the new buffer. -/
def starName (handle buf : Addr) (name : List UInt8) (bufLen : Nat) (buffer : List UInt8) :
    Status × List UInt8 :=
  if handle = 0 ∨ buf = 0 then (.nullPointer, buffer)
  else if name.length + 1 > bufLen then (.invalidArgument, buffer)
  else (.ok, name ++ [0] ++ buffer.drop (name.length + 1))

/-! ## Subjects and searches -/

/-- A proper motion record. -/
structure ProperMotion where
  ra : Rat
  dec : Rat
  deriving DecidableEq

/-- The value behind a generic target handle (`target.rs` 41-46, `CoordinateWithPM`). -/
structure Target (δ : Type) where
  position : δ
  epoch : Rat
  motion : Option ProperMotion

/-- `types.rs` 262-290: `SiderustSubject`, with handles resolved by the caller's
memory (`none` is the null handle). -/
inductive Subject (β σ δ : Type)
  | body (b : β)
  | star (h : Option σ)
  | icrs (frame : String) (azimuth polar : Rat)
  | generic (h : Option (Target δ))

/-- What a search runs on. -/
inductive Provider (β σ δ : Type)
  | body (b : β)
  | star (s : σ)
  | icrs (azimuth polar : Rat)
  | position (d : δ)
  deriving DecidableEq

/-- `ffi_utils.rs` 158-198: `dispatch_subject!`. -/
def dispatch {β σ δ : Type} : Subject β σ δ → Except Status (Provider β σ δ)
  | .body b => .ok (.body b)
  | .star none => .error .nullPointer
  | .star (some s) => .ok (.star s)
  | .icrs _ az p => .ok (.icrs az p)
  | .generic none => .error .nullPointer
  | .generic (some t) => .ok (.position t.position)

/-- A C floating-point argument: a number, or not finite. -/
inductive F64
  | fin (x : Rat)
  | nan
  | inf
  | ninf
  deriving DecidableEq

/-- `<` of `f64`. -/
def F64.lt : F64 → F64 → Bool
  | .fin a, .fin b => decide (a < b)
  | .fin _, .inf => true
  | .ninf, .fin _ => true
  | .ninf, .inf => true
  | _, _ => false

/-- `try_mjd_f64`: rejects values that are not finite. -/
def mjdFrom : F64 → Except Status Rat
  | .fin x => .ok x
  | _ => .error .invalidArgument

/-- `altitude.rs` 17-27: `window_from_c`. -/
def windowFromC (start stop : F64) : Except Status (Rat × Rat) :=
  if stop.lt start then .error .invalidPeriod
  else match mjdFrom start with
    | .error e => .error e
    | .ok a => match mjdFrom stop with
      | .error e => .error e
      | .ok b => .ok (a, b)

/-- `types.rs` 735-744: `SiderustSearchOpts::try_to_rust`. -/
def optsFromC : F64 → Except Status Rat
  | .fin x => if x ≤ 0 then .error .invalidArgument else .ok x
  | _ => .error .invalidArgument

/-- `subject.rs` 68-392: the array-returning searches (`siderust_above_threshold`,
`siderust_crossings`, …): window, options, subject, search, array.  `search` is
`none` when it panics. -/
def searchCall {β σ δ ρ α : Type} (A : Alloc) (subject : Subject β σ δ) (start stop tol : F64)
    (search : Provider β σ δ → Rat × Rat → Rat → Option (List ρ)) (conv : ρ → α)
    (out count : Addr) (m : Mem α) : Status × Mem α :=
  guard <|
    match windowFromC start stop with
    | .error e => .ret e m
    | .ok w => match optsFromC tol with
      | .error e => .ret e m
      | .ok t => match dispatch subject with
        | .error e => .ret e m
        | .ok p => match search p w t with
          | none => .panic m
          | some items =>
              let (s, m') := vecToC A items conv out count m
              .ret s m'

/-- `subject.rs` 42-66 and 237-259: `siderust_altitude_at`, `siderust_azimuth_at`.
The right-hand side of the assignment is evaluated before anything is written. -/
def scalarCall {β σ δ α : Type} (subject : Subject β σ δ) (mjd : F64)
    (eval : Provider β σ δ → Rat → Option α) (out : Addr) (m : Mem α) : Status × Mem α :=
  guard <|
    if out = 0 then .ret .nullPointer m
    else match dispatch subject with
      | .error e => .ret e m
      | .ok p => match mjdFrom mjd with
        | .error e => .ret e m
        | .ok t => match eval p t with
          | none => .panic m
          | some v => .ret .ok (m.store out (.record v))

/-! ## Codes decoded by hand -/

/-- `OrbitReferenceCenter`. -/
inductive RefCenter
  | barycentric | heliocentric | geocentric
  deriving DecidableEq, Repr

/-- `types.rs` 696-701: the code of `SiderustBodycentricParams::try_to_rust`. -/
def refCenterFromCode : Nat → RefCenter
  | 0 => .barycentric
  | 1 => .heliocentric
  | 2 => .geocentric
  | _ => .heliocentric

/-- `types.rs` 711-715: the code written by `from_rust`. -/
def refCenterCode : RefCenter → Nat
  | .barycentric => 0
  | .heliocentric => 1
  | .geocentric => 2

/-- `RustBodycentricParams`: orbit, centre and gravitational parameter. -/
structure BodyParams (ω : Type) where
  orbit : ω
  center : RefCenter
  mu : Rat

/-- `types.rs` 694-707: `try_to_rust` (valid orbit), with the two constants. -/
def paramsToRust {ω : Type} (gmSun gmEarth : Rat) (c : ω × Nat) : BodyParams ω :=
  let center := refCenterFromCode c.2
  ⟨c.1, center, match center with | .geocentric => gmEarth | _ => gmSun⟩

/-- `types.rs` 710-722: `from_rust`. -/
def paramsFromRust {ω : Type} (p : BodyParams ω) : ω × Nat := (p.orbit, refCenterCode p.center)

/-- `GravityModel`. -/
inductive Gravity
  | wgs72 | wgs72Iau | wgs84
  deriving DecidableEq, Repr

/-- `sgp4.rs` 195-199. -/
def gravityFromCode (c : Int) : Gravity :=
  if c = 1 then .wgs72Iau else if c = 2 then .wgs84 else .wgs72

/-- `sgp4.rs` 225-229. -/
def gravityCode : Gravity → Int
  | .wgs72 => 0
  | .wgs72Iau => 1
  | .wgs84 => 2

/-- `lambert.rs` 117-121: `true` is retrograde. -/
def retrogradeFromCode (c : Int) : Bool := c = 1

/-! ## Centre shifts -/

section Shift
variable {V : Type} [AddCommGroup V] [Module ℚ V]

/-- The ephemeris at one date: Sun from the barycentre and Earth from the Sun, in au
(`coordinates.rs` 958-967). -/
structure Eph (V : Type) where
  sunBary : V
  earthHelio : V

/-- `coordinates.rs` 947-988: `shift_center_xyz`; `eph = none` when the date is
rejected. -/
def shiftCenter (eph : Option (Eph V)) (p : V) (src dst : Nat) : Except Status V :=
  if src = dst then .ok p
  else match eph with
    | none => .error .invalidArgument
    | some e =>
        let h := match src with
          | 0 => p - e.sunBary
          | 1 => p
          | 2 => p + e.earthHelio
          | _ => p
        .ok <| match dst with
          | 0 => h + e.sunBary
          | 1 => h
          | 2 => h - e.earthHelio
          | _ => h

/-- `types.rs` 118-132: `SiderustCenter`. -/
inductive Center
  | barycentric | heliocentric | geocentric | topocentric | bodycentric
  deriving DecidableEq, Repr

/-- `types.rs` 182-199: `SiderustLengthUnit`. -/
inductive LengthUnit
  | au | km | lightYear | parsec | meter
  deriving DecidableEq, Repr

/-- `types.rs`: `SiderustCartesianPos` (frame kept as a name). -/
structure Pos (V : Type) where
  p : V
  frame : String
  center : Center
  lengthUnit : LengthUnit

/-- `coordinates.rs` 990-998: `center_to_shift_code`. -/
def shiftCode : Center → Option Nat
  | .barycentric => some 0
  | .heliocentric => some 1
  | .geocentric => some 2
  | _ => none

/-- `coordinates.rs` 1007-1043: `siderust_cartesian_pos_transform_center`
(output pointer not null). -/
def transformCenter (eph : Option (Eph V)) (pos : Pos V) (dst : Center) : Except Status (Pos V) :=
  match shiftCode pos.center with
  | none => .error .invalidCenter
  | some a => match shiftCode dst with
    | none => .error .invalidCenter
    | some b => match shiftCenter eph pos.p a b with
      | .error e => .error e
      | .ok q => .ok ⟨q, pos.frame, dst, pos.lengthUnit⟩

/-- `coordinates.rs` 1244-1290: `siderust_to_bodycentric`; `body` is the Keplerian
position of the body relative to its orbit centre, `none` when the orbit is invalid
or the date is rejected. -/
def toBodycentric (eph : Option (Eph V)) (body : Option V) (orbitCenter : Nat) (pos : Pos V) :
    Except Status (Pos V) :=
  match shiftCode pos.center with
  | none => .error .invalidCenter
  | some c => match body with
    | none => .error .invalidArgument
    | some k => match shiftCenter eph k orbitCenter c with
      | .error e => .error e
      | .ok b => .ok ⟨pos.p - b, pos.frame, .bodycentric, pos.lengthUnit⟩

/-- `coordinates.rs` 1300-1340: `siderust_from_bodycentric`. -/
def fromBodycentric (eph : Option (Eph V)) (body : Option V) (orbitCenter : Nat) (pos : Pos V) :
    Except Status (Pos V) :=
  match body with
  | none => .error .invalidArgument
  | some k => match shiftCenter eph k orbitCenter 2 with
    | .error e => .error e
    | .ok b => .ok ⟨pos.p + b, pos.frame, .geocentric, .au⟩

end Shift

/-! ## Directions -/

/-- A spherical direction of the Rust API: polar angle (altitude, declination or
latitude) and azimuth, in degrees. -/
structure Dir where
  polar : Rat
  azimuth : Rat
  deriving DecidableEq, Repr

/-- `types.rs`: `SiderustSphericalDir`. -/
structure CDir where
  polarDeg : Rat
  azimuthDeg : Rat
  frame : String
  deriving DecidableEq, Repr

/-- `coordinates.rs` 36-38: `sph_to_pair`. -/
def sphToPair (d : Dir) : Rat × Rat := (d.polar, d.azimuth)

/-- `coordinates.rs` 181-224: `with_spherical_dir_in_frame!`, the frames a direction
may come from. -/
def supportedFrame (f : String) : Bool :=
  f = "ICRS" || f = "EclipticMeanJ2000" || f = "EquatorialMeanJ2000" ||
  f = "EquatorialMeanOfDate" || f = "EquatorialTrueOfDate"

/-- `coordinates.rs` 235-270: `siderust_spherical_dir_transform_frame`; `rot` is the
transformation of the Rust API between the two frames at the date, `jdOk` says
whether the date is accepted. -/
def transformFrame (rot : String → String → Dir → Dir) (jdOk : Bool) (polar azimuth : Rat)
    (src dst : String) : Except Status CDir :=
  if !supportedFrame src then .error .invalidFrame
  else if !supportedFrame dst then .error .invalidFrame
  else if !jdOk then .error .invalidArgument
  else
    let (outPolar, outAzimuth) := sphToPair (rot src dst ⟨polar, azimuth⟩)
    .ok ⟨outPolar, outAzimuth, dst⟩

/-- `coordinates.rs` 322-355 (and 361-400, 406-450): `siderust_spherical_dir_to_horizontal`;
`toHz` is the conversion of the Rust API.  The pair is bound as `(az, alt)`. -/
def toHorizontal (toHz : String → Dir → Dir) (jdOk : Bool) (polar azimuth : Rat) (src : String) :
    Except Status CDir :=
  if !supportedFrame src then .error .invalidFrame
  else if !jdOk then .error .invalidArgument
  else
    let (az, alt) := sphToPair (toHz src ⟨polar, azimuth⟩)
    .ok ⟨alt, az, "Horizontal"⟩

end Verif.Ffi
