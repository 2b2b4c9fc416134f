import Verif.Ffi.Model

/-!
# Handles of the C interface: ephemerides, dynamics contexts, orbit states, propagators

Model of `siderust-ffi/src/dynamics.rs`, `siderust-ffi/src/runtime_ephemeris.rs` and
`siderust-ffi/src/ephemeris.rs`.

The library's heap is a map from addresses to boxed values; address `0` is the null pointer. Using a
pointer that is not null and not the address of a live value of the right type is undefined behaviour:
outcome `none`. Results written through a non-null output pointer are returned next to the status. The
integrator (`principia`), the epoch conversions (`tempoch`), the ephemerides and the files they are read
from are parameters. Callback tables hold functions; their `user_data` is part of the function.
-/

namespace Verif.Handles

open Verif.Ffi (Addr Status F64)

/-! ## Statuses and callbacks -/

/-- `SiderustDynamicsStatus` (dynamics.rs:106-133). -/
inductive DStatus
  | ok | nullPointer | ephemerisUnavailable | eopUnavailable | gravityCoefficientUnavailable
  | altitudeBelowSurface | degenerateGeometry | invalidStepRequest | atmosphereProviderError | providerError
  | gravityFieldUnavailable | geopotentialDegreeOutOfRange | internalPanic
  deriving DecidableEq

/-- Its discriminants. -/
def DStatus.code : DStatus → Int
  | .ok => 0
  | .nullPointer => 1
  | .ephemerisUnavailable => 2
  | .eopUnavailable => 3
  | .gravityCoefficientUnavailable => 4
  | .altitudeBelowSurface => 5
  | .degenerateGeometry => 6
  | .invalidStepRequest => 7
  | .atmosphereProviderError => 8
  | .providerError => 9
  | .gravityFieldUnavailable => 10
  | .geopotentialDegreeOutOfRange => 11
  | .internalPanic => 99

/-- `DynamicsError`, the variants (astro/dynamics/errors.rs) with what is needed of their fields. -/
inductive DynErr
  | ephemerisUnavailable | eopUnavailable | gravityCoefficientUnavailable (degree order : Nat)
  | altitudeBelowSurface (km : Rat) | degenerateGeometry | invalidStepRequest | atmosphereProviderError | provider
  | gravityFieldUnavailable | geopotentialDegreeOutOfRange

/-- `from_dynamics_error` (dynamics.rs:136-153). -/
def DStatus.ofError : DynErr → DStatus
  | .ephemerisUnavailable => .ephemerisUnavailable
  | .eopUnavailable => .eopUnavailable
  | .gravityCoefficientUnavailable _ _ => .gravityCoefficientUnavailable
  | .altitudeBelowSurface _ => .altitudeBelowSurface
  | .degenerateGeometry => .degenerateGeometry
  | .invalidStepRequest => .invalidStepRequest
  | .atmosphereProviderError => .atmosphereProviderError
  | .provider => .providerError
  | .gravityFieldUnavailable => .gravityFieldUnavailable
  | .geopotentialDegreeOutOfRange => .geopotentialDegreeOutOfRange

/-- `f64::is_finite`. -/
def finite : F64 → Bool
  | .fin _ => true
  | _ => false

/-- `x <= 0.0`. -/
def notPositive : F64 → Bool
  | .fin a => decide (a ≤ 0)
  | .ninf => true
  | _ => false

/-- `x < 0.0`. -/
def negative : F64 → Bool
  | .fin a => decide (a < 0)
  | .ninf => true
  | _ => false

/-- `FfiDensityProvider::density` (dynamics.rs:229-243). -/
def density (callback : Rat → F64) (altitude : Rat) : Except DynErr F64 :=
  let rho := callback altitude
  if !finite rho then .error .provider
  else if negative rho then .error (.altitudeBelowSurface altitude)
  else .ok rho

/-- `SiderustGravityVtable` (dynamics.rs:195-210). -/
structure Gravity where
  gm : F64
  radius : F64
  maxDegree : Nat
  maxOrder : Nat
  c : Nat → Nat → F64
  s : Nat → Nat → F64

/-- `c_normalized`, `s_normalized` (dynamics.rs:271-293): the arguments are cut to 32 bits, those of the error to
16. -/
def coefficient (callback : Nat → Nat → F64) (n m : Nat) : Except DynErr F64 :=
  let v := callback (n % 2 ^ 32) (m % 2 ^ 32)
  if !finite v then .error (.gravityCoefficientUnavailable (n % 2 ^ 16) (m % 2 ^ 16)) else .ok v

/-! ## Values behind handles -/

/-- `DynamicsContext` as far as the C interface sets it. -/
structure Context (E : Type) where
  ephemeris : Option E := none
  atmosphere : Option (Rat → F64) := none
  gravity : Option Gravity := none

/-- `OrbitState<Geocentric, GCRS>`. -/
structure State (T : Type) where
  epoch : T
  r : Rat × Rat × Rat
  v : Rat × Rat × Rat

/-- What a handle can point to. -/
inductive Obj (E T : Type)
  | ephemeris (e : E)
  | context (c : Context E)
  | state (s : State T)
  | propagator (gm : Rat)

/-- The heap. -/
abbrev Heap (E T : Type) := Addr → Option (Obj E T)

/-- The allocator. -/
abbrev Alloc (E T : Type) := Heap E T → Addr

variable {E T : Type}

/-- `Box::into_raw(Box::new(v))`. -/
def box (A : Alloc E T) (h : Heap E T) (v : Obj E T) : Addr × Heap E T :=
  (A h, fun a => if a = A h then some v else h a)

/-- Writing to a live address. -/
def put (h : Heap E T) (p : Addr) (v : Obj E T) : Heap E T := fun a => if a = p then some v else h a

/-- Dropping. -/
def drop (h : Heap E T) (p : Addr) : Heap E T := fun a => if a = p then none else h a

/-- Dereferencing as each type; `none` is undefined behaviour. -/
def asEphemeris (h : Heap E T) (p : Addr) : Option E :=
  match h p with
  | some (.ephemeris e) => some e
  | _ => none
def asContext (h : Heap E T) (p : Addr) : Option (Context E) :=
  match h p with
  | some (.context c) => some c
  | _ => none
def asState (h : Heap E T) (p : Addr) : Option (State T) :=
  match h p with
  | some (.state s) => some s
  | _ => none
def asPropagator (h : Heap E T) (p : Addr) : Option Rat :=
  match h p with
  | some (.propagator g) => some g
  | _ => none

/-! ## Constructors -/

/-- `siderust_runtime_ephemeris_load_bsp` (runtime_ephemeris.rs:56-78): `text` is the path decoded, `load` reads the
file. -/
def loadBsp (A : Alloc E T) (path out : Addr) (text : Option String) (load : String → Option E) (h : Heap E T) :
    Status × Heap E T × Option Addr :=
  if path = 0 ∨ out = 0 then (.nullPointer, h, none)
  else match text with
    | none => (.invalidArgument, h, none)
    | some s => match load s with
      | none => (.dataError, h, none)
      | some e => let (p, h') := box A h (.ephemeris e); (.ok, h', some p)

/-- `siderust_runtime_ephemeris_load_bytes` (85-105). -/
def loadBytes (A : Alloc E T) (data out : Addr) (bytes : List UInt8) (parse : List UInt8 → Option E) (h : Heap E T) :
    Status × Heap E T × Option Addr :=
  if data = 0 ∨ out = 0 then (.nullPointer, h, none)
  else match parse bytes with
    | none => (.dataError, h, none)
    | some e => let (p, h') := box A h (.ephemeris e); (.ok, h', some p)

/-- `siderust_dynamics_context_new` (dynamics.rs:321-335). -/
def contextNew (A : Alloc E T) (out : Addr) (h : Heap E T) : Status × Heap E T × Option Addr :=
  if out = 0 then (.nullPointer, h, none)
  else let (p, h') := box A h (.context {}); (.ok, h', some p)

/-- `siderust_orbit_state_new` (458-485). -/
def stateNew (A : Alloc E T) (toEpoch : Rat → T) (jd x y z vx vy vz : F64) (out : Addr) (h : Heap E T) :
    Status × Heap E T × Option Addr :=
  if out = 0 then (.nullPointer, h, none)
  else match jd, x, y, z, vx, vy, vz with
    | .fin jd, .fin x, .fin y, .fin z, .fin vx, .fin vy, .fin vz =>
      let (p, h') := box A h (.state ⟨toEpoch jd, (x, y, z), (vx, vy, vz)⟩); (.ok, h', some p)
    | _, _, _, _, _, _, _ => (.invalidArgument, h, none)

/-- `siderust_propagator_two_body_earth_new` (582-596). -/
def propagatorEarth (A : Alloc E T) (gmEarth : Rat) (out : Addr) (h : Heap E T) : Status × Heap E T × Option Addr :=
  if out = 0 then (.nullPointer, h, none)
  else let (p, h') := box A h (.propagator gmEarth); (.ok, h', some p)

/-- `siderust_propagator_two_body_new` (606-624). -/
def propagatorNew (A : Alloc E T) (gm : F64) (out : Addr) (h : Heap E T) : Status × Heap E T × Option Addr :=
  if out = 0 then (.nullPointer, h, none)
  else if !finite gm || notPositive gm then (.invalidArgument, h, none)
  else match gm with
    | .fin g => let (p, h') := box A h (.propagator g); (.ok, h', some p)
    | _ => (.invalidArgument, h, none)

/-! ## Releasing -/

/-- The four `_free` functions (runtime_ephemeris.rs:162-168, dynamics.rs:343-347, 493-497, 632-636). -/
def freeEphemeris (p : Addr) (h : Heap E T) : Option (Heap E T) :=
  if p ≠ 0 then (asEphemeris h p).map fun _ => drop h p else some h
def freeContext (p : Addr) (h : Heap E T) : Option (Heap E T) :=
  if p ≠ 0 then (asContext h p).map fun _ => drop h p else some h
def freeState (p : Addr) (h : Heap E T) : Option (Heap E T) :=
  if p ≠ 0 then (asState h p).map fun _ => drop h p else some h
def freePropagator (p : Addr) (h : Heap E T) : Option (Heap E T) :=
  if p ≠ 0 then (asPropagator h p).map fun _ => drop h p else some h

/-! ## Attaching providers -/

/-- `siderust_dynamics_context_with_ephemeris` (356-371): the ephemeris is cloned. -/
def withEphemeris (c e : Addr) (h : Heap E T) : Option (Status × Heap E T) :=
  if c = 0 ∨ e = 0 then some (.nullPointer, h)
  else (asEphemeris h e).bind fun eph => (asContext h c).map fun ctx =>
    (.ok, put h c (.context { ctx with ephemeris := some eph }))

/-- `siderust_dynamics_context_with_atmosphere` (384-400); `vtable = none` is the null pointer. -/
def withAtmosphere (c : Addr) (vtable : Option (Rat → F64)) (h : Heap E T) : Option (Status × Heap E T) :=
  if c = 0 then some (.nullPointer, h)
  else match vtable with
    | none => some (.nullPointer, h)
    | some f => (asContext h c).map fun ctx => (.ok, put h c (.context { ctx with atmosphere := some f }))

/-- `siderust_dynamics_context_with_gravity_field` (413-433). -/
def withGravity (c : Addr) (vtable : Option Gravity) (h : Heap E T) : Option (Status × Heap E T) :=
  if c = 0 then some (.nullPointer, h)
  else match vtable with
    | none => some (.nullPointer, h)
    | some g =>
      if !finite g.gm || notPositive g.gm || !finite g.radius || notPositive g.radius then some (.invalidArgument, h)
      else (asContext h c).map fun ctx => (.ok, put h c (.context { ctx with gravity := some g }))

/-! ## Reading and propagating -/

/-- `siderust_orbit_state_position` (501-520); `outs` are the three output pointers. -/
def statePosition (p : Addr) (ox oy oz : Addr) (h : Heap E T) : Option (Status × Option (Rat × Rat × Rat)) :=
  if p = 0 ∨ ox = 0 ∨ oy = 0 ∨ oz = 0 then some (.nullPointer, none)
  else (asState h p).map fun s => (.ok, some s.r)

/-- `siderust_orbit_state_velocity` (524-543). -/
def stateVelocity (p : Addr) (ox oy oz : Addr) (h : Heap E T) : Option (Status × Option (Rat × Rat × Rat)) :=
  if p = 0 ∨ ox = 0 ∨ oy = 0 ∨ oz = 0 then some (.nullPointer, none)
  else (asState h p).map fun s => (.ok, some s.v)

/-- `siderust_orbit_state_epoch_jd` (547-560). -/
def stateEpoch (toJd : T → Rat) (p out : Addr) (h : Heap E T) : Option (Status × Option Rat) :=
  if p = 0 ∨ out = 0 then some (.nullPointer, none)
  else (asState h p).map fun s => (.ok, some (toJd s.epoch))

/-- What the integrator does: it returns, or panics (`none`). -/
abbrev Integrator (E T : Type) := Rat → State T → Rat → Context E → Option (Except DynErr (State T))

/-- The end of `siderust_propagator_propagate` (687-695) under the guard (71-79). -/
def conclude (A : Alloc E T) (h : Heap E T) : Option (Except DynErr (State T)) → DStatus × Heap E T × Option Addr
  | none => (.internalPanic, h, none)
  | some (.error e) => (.ofError e, h, none)
  | some (.ok s) => let (p, h') := box A h (.state s); (.ok, h', some p)

/-- The context (673-680): null is an empty one. -/
def contextOf (c : Addr) (h : Heap E T) : Option (Context E) := if c = 0 then some {} else asContext h c

/-- `siderust_propagator_propagate` (652-697). -/
def propagate (A : Alloc E T) (dop : Integrator E T) (p s : Addr) (dt : F64) (c out : Addr) (h : Heap E T) :
    Option (DStatus × Heap E T × Option Addr) :=
  if p = 0 ∨ s = 0 ∨ out = 0 then some (.nullPointer, h, none)
  else match dt with
    | .fin d => (asPropagator h p).bind fun gm => (asState h s).bind fun s0 => (contextOf c h).map fun ctx =>
        conclude A h (dop gm s0 d ctx)
    | _ => some (.invalidStepRequest, h, none)

/-! ## Ephemeris queries -/

/-- `EphemerisError` and `ephemeris_status` (runtime_ephemeris.rs:27-32). -/
inductive EphErr
  | outOfRange | invalidSegment
  deriving DecidableEq
def EphErr.status : EphErr → Status
  | .outOfRange => .outOfRange
  | .invalidSegment => .dataError

/-- Bodies, centres and units of the results. -/
inductive Body
  | sun | mercury | venus | earth | moon | mars | jupiter | saturn | uranus | neptune
  deriving DecidableEq
inductive Centre
  | barycentric | heliocentric | geocentric
  deriving DecidableEq
inductive Length
  | au | km
  deriving DecidableEq

/-- One C function: its name, the body and centre of the series or method it calls, and the centre and unit it
writes next to the coordinates; the frame is EclipticMeanJ2000 in all. -/
structure Entry where
  name : String
  body : Body
  calls : Centre
  centre : Centre
  unit : Length
  deriving DecidableEq

/-- ephemeris.rs 17-399: `vsop87a` is heliocentric, `vsop87e` barycentric. -/
def vsopTable : List Entry :=
  [⟨"siderust_vsop87_sun_barycentric", .sun, .barycentric, .barycentric, .au⟩,
   ⟨"siderust_vsop87_earth_barycentric", .earth, .barycentric, .barycentric, .au⟩,
   ⟨"siderust_vsop87_earth_heliocentric", .earth, .heliocentric, .heliocentric, .au⟩,
   ⟨"siderust_vsop87_mars_heliocentric", .mars, .heliocentric, .heliocentric, .au⟩,
   ⟨"siderust_vsop87_mars_barycentric", .mars, .barycentric, .barycentric, .au⟩,
   ⟨"siderust_vsop87_venus_heliocentric", .venus, .heliocentric, .heliocentric, .au⟩,
   ⟨"siderust_vsop87_mercury_heliocentric", .mercury, .heliocentric, .heliocentric, .au⟩,
   ⟨"siderust_vsop87_mercury_barycentric", .mercury, .barycentric, .barycentric, .au⟩,
   ⟨"siderust_vsop87_venus_barycentric", .venus, .barycentric, .barycentric, .au⟩,
   ⟨"siderust_vsop87_jupiter_heliocentric", .jupiter, .heliocentric, .heliocentric, .au⟩,
   ⟨"siderust_vsop87_jupiter_barycentric", .jupiter, .barycentric, .barycentric, .au⟩,
   ⟨"siderust_vsop87_saturn_heliocentric", .saturn, .heliocentric, .heliocentric, .au⟩,
   ⟨"siderust_vsop87_saturn_barycentric", .saturn, .barycentric, .barycentric, .au⟩,
   ⟨"siderust_vsop87_uranus_heliocentric", .uranus, .heliocentric, .heliocentric, .au⟩,
   ⟨"siderust_vsop87_uranus_barycentric", .uranus, .barycentric, .barycentric, .au⟩,
   ⟨"siderust_vsop87_neptune_heliocentric", .neptune, .heliocentric, .heliocentric, .au⟩,
   ⟨"siderust_vsop87_neptune_barycentric", .neptune, .barycentric, .barycentric, .au⟩,
   ⟨"siderust_vsop87_moon_geocentric", .moon, .geocentric, .geocentric, .km⟩]

/-- runtime_ephemeris.rs 176-330, the positions. -/
def runtimeTable : List Entry :=
  [⟨"siderust_runtime_ephemeris_sun_barycentric", .sun, .barycentric, .barycentric, .au⟩,
   ⟨"siderust_runtime_ephemeris_earth_barycentric", .earth, .barycentric, .barycentric, .au⟩,
   ⟨"siderust_runtime_ephemeris_earth_heliocentric", .earth, .heliocentric, .heliocentric, .au⟩,
   ⟨"siderust_runtime_ephemeris_moon_geocentric", .moon, .geocentric, .geocentric, .km⟩]

/-- What a query writes. -/
structure Pos where
  xyz : Rat × Rat × Rat
  centre : Centre
  unit : Length

/-- A position query of a runtime ephemeris (176-330): `try` is the `try_…` method for body and centre, `toJd`
checks the date. -/
def query (f : Entry) (toJd : F64 → Option T) (try_ : E → Body → Centre → T → Except EphErr (Rat × Rat × Rat))
    (p : Addr) (jd : F64) (out : Addr) (h : Heap E T) : Option (Status × Option Pos) :=
  if p = 0 ∨ out = 0 then some (.nullPointer, none)
  else (asEphemeris h p).map fun e =>
    match toJd jd with
    | none => (.invalidArgument, none)
    | some t => match try_ e f.body f.calls t with
      | .error err => (err.status, none)
      | .ok v => (.ok, some ⟨v, f.centre, f.unit⟩)

/-- A VSOP87 query (ephemeris.rs): the series always answer. -/
def vsopQuery (f : Entry) (toJd : F64 → Option T) (series : Body → Centre → T → Rat × Rat × Rat) (jd : F64)
    (out : Addr) : Status × Option Pos :=
  if out = 0 then (.nullPointer, none)
  else match toJd jd with
    | none => (.invalidArgument, none)
    | some t => (.ok, some ⟨series f.body f.calls t, f.centre, f.unit⟩)

end Verif.Handles
