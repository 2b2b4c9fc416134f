import Verif.Tle.Model
import Verif.MeanElements.Model
import Verif.Ffi.Model

/-!
# Two-line elements from C

Model of `siderust-ffi/src/sgp4.rs`: reading a pair of lines into a handle, preparing a propagator, and propagating.

Simplifications: the heap is a partial map from addresses; a read outside of it is undefined behaviour (`none`); a C string
is a null pointer, or bytes that are not UTF-8, or a text; what a call writes through its output pointers is part of its
result. Numbers are real once the lines have been read, and the finite-number tests of `propagator.rs` are those of the
elements. `julian` gives the Julian date of an epoch (`tempoch`).
-/

namespace Verif.CTle

open Verif.Text (Str Res F64 trim)
open Verif.Tle (TLE DateTime parseTle)
open Verif.MeanElements (Elements Gravity Vec)
open Verif.Ffi (Status)

abbrev Addr := Nat

/-- A `*const c_char`. -/
inductive CStr where
  | null
  | notUtf8
  | text (s : Str)

/-- `CStr::from_ptr(p).to_str().unwrap_or("").trim()` of a pointer that is not null (sgp4.rs 105-112). -/
def CStr.decoded : CStr → Str
  | .text s => trim s
  | _ => []

/-- `Sgp4Propagator`: `none` are elements with an angle that is not finite. -/
structure Propagator where
  elements : Option Elements
  gravity : Gravity
  epoch : ℝ

/-- Boxed values. -/
inductive Obj where
  | tle (t : TLE F64)
  | propagator (p : Propagator)

abbrev Heap := Addr → Option Obj
abbrev Alloc := Heap → Addr

/-- `Box::into_raw(Box::new(v))`. -/
def box (A : Alloc) (h : Heap) (v : Obj) : Addr × Heap := (A h, fun a => if a = A h then some v else h a)

/-- Dereferencing. -/
def asTle (h : Heap) (p : Addr) : Option (TLE F64) :=
  match h p with
  | some (.tle t) => some t
  | _ => none
def asPropagator (h : Heap) (p : Addr) : Option Propagator :=
  match h p with
  | some (.propagator q) => some q
  | _ => none

/-- `siderust_tle_parse` (sgp4.rs 94-125). -/
def parse (utcOk : DateTime → Bool) (A : Alloc) (line1 line2 : CStr) (out : Addr) (h : Heap) :
    Status × Heap × Option Addr :=
  if out = 0 then (.nullPointer, h, none)
  else match line1, line2 with
    | .null, _ => (.nullPointer, h, none)
    | _, .null => (.nullPointer, h, none)
    | l1, l2 => match parseTle utcOk l1.decoded l2.decoded with
      | .ok t => let (p, h') := box A h (.tle t); (.ok, h', some p)
      | .err _ => (.invalidArgument, h, none)
      | .panic => (.internalPanic, h, none)

/-- `siderust_tle_norad_id` (sgp4.rs 133-148); the outer `none` is undefined behaviour. -/
def noradId (tle out : Addr) (h : Heap) : Option (Status × Option Nat) :=
  if out = 0 then some (.nullPointer, none)
  else if tle = 0 then some (.nullPointer, none)
  else (asTle h tle).map fun t => (.ok, some t.norad)

/-- `siderust_tle_free`, `siderust_sgp4_free` (sgp4.rs 153-158, 312-317). -/
def free (p : Addr) (h : Heap) : Heap := if p = 0 then h else fun a => if a = p then none else h a

/-- The finite value of a parsed number. -/
noncomputable def real : F64 → Option ℝ
  | .num q => some (q : ℝ)
  | _ => none

/-- The choice of the gravity model (sgp4.rs 195-199). -/
def gravityOf (k : Int) : Gravity :=
  if k = 1 then .wgs72Iau else if k = 2 then .wgs84 else .wgs72

/-- `Sgp4Propagator::from_tle_with_model` (propagator.rs 153-164, elements.rs 35-69, propagator.rs 300-318) of a set that has
been read: a derivative that is not finite makes the mean motion of the epoch not a number, the angles are not tested. -/
noncomputable def prepare (julian : DateTime → ℝ) (t : TLE F64) (g : Gravity) : Option Propagator :=
  match real t.nDot with
  | none => none
  | some nDot =>
    let angle (x : F64) : ℝ := (real x).getD 0
    match MeanElements.fromTle ⟨t.epoch.year, angle t.inclination, angle t.raan, some (t.ecc : ℝ), angle t.argp,
        angle t.meanAnomaly, real t.meanMotion, nDot, (t.nDdot : ℝ), (t.bstar : ℝ)⟩ g with
    | .error _ => none
    | .ok (el, _) =>
      let finite := (real t.inclination).isSome && (real t.raan).isSome && (real t.argp).isSome && (real t.meanAnomaly).isSome
      some ⟨if finite then some el else none, g, julian t.epoch⟩

/-- `siderust_sgp4_new` (sgp4.rs 183-211). -/
noncomputable def sgp4New (julian : DateTime → ℝ) (A : Alloc) (tle : Addr) (model : Int) (out : Addr) (h : Heap) :
    Option (Status × Heap × Option Addr) :=
  if out = 0 then some (.nullPointer, h, none)
  else if tle = 0 then some (.nullPointer, h, none)
  else (asTle h tle).map fun t =>
    match prepare julian t (gravityOf model) with
    | some q => let (p, h') := box A h (.propagator q); (.ok, h', some p)
    | none => (.invalidArgument, h, none)

/-- `siderust_sgp4_gravity_model` (sgp4.rs 217-236). -/
def gravityModel (sgp4 out : Addr) (h : Heap) : Option (Status × Option Int) :=
  if out = 0 then some (.nullPointer, none)
  else if sgp4 = 0 then some (.nullPointer, none)
  else (asPropagator h sgp4).map fun q =>
    (.ok, some (match q.gravity with | .wgs72 => 0 | .wgs72Iau => 1 | .wgs84 => 2))

/-- `siderust_sgp4_epoch_jd_utc` (sgp4.rs 242-255). -/
def epochJd (sgp4 out : Addr) (h : Heap) : Option (Status × Option ℝ) :=
  if out = 0 then some (.nullPointer, none)
  else if sgp4 = 0 then some (.nullPointer, none)
  else (asPropagator h sgp4).map fun q => (.ok, some q.epoch)

/-- `siderust_sgp4_propagate_at` (sgp4.rs 272-307): `none` as a date is one that is not finite. An angle that is not finite
makes Kepler's equation fail or a component of the state not a number (propagator.rs 359-385). -/
noncomputable def propagateAt (sgp4 : Addr) (jd : Option ℝ) (outPos outVel : Addr) (h : Heap) :
    Option (Status × Option (Vec × Vec)) :=
  if outPos = 0 then some (.nullPointer, none)
  else if outVel = 0 then some (.nullPointer, none)
  else if sgp4 = 0 then some (.nullPointer, none)
  else (asPropagator h sgp4).map fun q =>
    match jd with
    | none => (.invalidArgument, none)
    | some t => match q.elements with
      | none => (.invalidArgument, none)
      | some el => match MeanElements.propagateAt el (MeanElements.constants q.gravity) q.epoch t with
        | .ok (_, s) => (.ok, some s)
        | .error _ => (.invalidArgument, none)

end Verif.CTle
