import Verif.Runtime.Model
import Verif.Handles.Model

/-!
# An ephemeris file through the C interface

Model of `siderust-ffi/src/runtime_ephemeris.rs` (lines 25-33 and 85-330): the bytes of a kernel become a handle, and the
handle answers queries.

Simplifications: a heap of boxed ephemerides; a read outside of it is undefined behaviour (`none`), and so is a search for
summaries that has not ended within `fuel` steps, for which nothing is claimed. A date is a real number, or `none` if it is
not finite. A call that unwinds is caught by `ffi_guard!` and reported as `internalPanic`. What is written through the output
pointer is part of the result. `load_bsp` and `ensure` obtain the bytes from a file or a download and are not modelled.
-/

namespace Verif.CEph
open Verif.Text Verif.Bits Verif.Daf Verif.Runtime
open Verif.Ffi (Status)
open Verif.Handles (Centre Length)

noncomputable section

abbrev Addr := Nat
abbrev Heap := Addr → Option Eph
abbrev Alloc := Heap → Addr

/-- `ephemeris_status` (runtime_ephemeris.rs 25-33). `EphemerisError` has the two variants `OutOfRange` and
`InvalidSegment`; the other two constructors of `Interp.Err` belong to a type it does not include. -/
def errStatus : Interp.Err → Status
  | .outOfCoverage => .outOfRange
  | _ => .dataError

/-- `siderust_runtime_ephemeris_load_bytes` (85-105). -/
def loadBytes (ck : Bool) (other : Bytes → Bool) (fuel : Nat) (A : Alloc) (ptr : Addr) (data : Bytes) (out : Addr)
    (h : Heap) : Option (Status × Heap × Option Addr) :=
  if ptr = 0 ∨ out = 0 then some (.nullPointer, h, none)
  else (fromBytes ck other fuel data).map fun
    | .ok e => (.ok, fun a => if a = A h then some e else h a, some (A h))
    | .err _ => (.dataError, h, none)
    | .panic => (.internalPanic, h, none)

/-- `siderust_runtime_ephemeris_free` (162-168). -/
def free (p : Addr) (h : Heap) : Option Heap :=
  if p = 0 then some h
  else (h p).map fun _ => fun a => if a = p then none else h a

/-- The four position queries. -/
inductive Query
  | sun | earth | earthFromSun | moon
  deriving DecidableEq

/-- The frame of the records; all queries write the same one. -/
inductive Frame
  | eclipticMeanJ2000
  deriving DecidableEq

/-- `SiderustCartesianPos` (types.rs). -/
structure Pos where
  xyz : Vec
  frame : Frame
  centre : Centre
  unit : Length

/-- `SiderustCartesianVel`. -/
structure Vel where
  xyz : Vec
  frame : Frame

section calls
-- the evaluation of a series and of its derivative, the ratio of the masses, the two conversions
variable (ev evD : List ℝ → ℝ → ℝ) (ratio : ℝ) (au km : Vec →ₗ[ℝ] Vec)

/-- The method that a query calls (188, 221, 254, 316). -/
def inner : Query → Eph → ℝ → Res Interp.Err Vec
  | .sun => sunBarycentric ev au
  | .earth => earthBarycentric ev ratio au
  | .earthFromSun => earthHeliocentric ev ratio au
  | .moon => moonGeocentric ev ratio km

/-- The labels that a query writes (199-201, 232-234, 265-267, 327-329). -/
def record : Query → Vec → Pos
  | .sun, v => ⟨v, .eclipticMeanJ2000, .barycentric, .au⟩
  | .earth, v => ⟨v, .eclipticMeanJ2000, .barycentric, .au⟩
  | .earthFromSun, v => ⟨v, .eclipticMeanJ2000, .heliocentric, .au⟩
  | .moon, v => ⟨v, .eclipticMeanJ2000, .geocentric, .km⟩

/-- `siderust_runtime_ephemeris_sun_barycentric`, `_earth_barycentric`, `_earth_heliocentric`, `_moon_geocentric`
(176-273, 303-334). -/
def position (q : Query) (p : Addr) (jd : Option ℝ) (out : Addr) (h : Heap) : Option (Status × Option Pos) :=
  if p = 0 ∨ out = 0 then some (.nullPointer, none)
  else (h p).map fun e =>
    match jd with
    | none => (.invalidArgument, none)
    | some t => match inner ev ratio au km q e t with
      | .ok v => (.ok, some (record q v))
      | .err x => (errStatus x, none)
      | .panic => (.internalPanic, none)

/-- `siderust_runtime_ephemeris_earth_barycentric_velocity` (275-301). -/
def velocity (p : Addr) (jd : Option ℝ) (out : Addr) (h : Heap) : Option (Status × Option Vel) :=
  if p = 0 ∨ out = 0 then some (.nullPointer, none)
  else (h p).map fun e =>
    match jd with
    | none => (.invalidArgument, none)
    | some t => match earthVelocity ev evD ratio au e t with
      | .ok v => (.ok, some ⟨v, .eclipticMeanJ2000⟩)
      | .err x => (errStatus x, none)
      | .panic => (.internalPanic, none)

end calls
end
end Verif.CEph
