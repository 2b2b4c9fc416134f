import Verif.Ffi.Model
import Mathlib.Data.Rat.Defs

/-!
# Stars through the C interface

Model of the star constants (src/bodies/catalog.rs) and of the functions on star handles of siderust-ffi/src/bodies.rs (36-245).

Simplifications: the heap is a partial map from addresses; a read or a release outside of it is undefined behaviour (`none`);
what a call writes through its output pointers is part of its result. A C string is null, not UTF-8, or a list of characters.
`Position::new` (affn) is a parameter that may panic; decimal constants are rationals. `str::to_uppercase` is written out for
ASCII and for the two other characters whose upper case is an ASCII letter; for the rest it is a parameter.
-/

namespace Verif.CStar

open Verif.Ffi (Status F64)

abbrev Addr := Nat

/-- A spherical position: polar angle (declination), azimuth (right ascension), distance. -/
structure Place where
  dec : F64
  ra : F64
  dist : F64
  deriving DecidableEq

/-- `ProperMotion` (src/astro/proper_motion.rs): components, and whether the first is already multiplied by the cosine of the
declination. -/
structure Motion where
  ra : F64
  dec : F64
  star : Bool
  deriving DecidableEq

/-- `Star` (src/bodies/stars.rs 60-85): name, distance, mass, radius, luminosity, and the coordinate with its epoch and proper
motion. -/
structure Star where
  name : List Char
  distance : F64
  mass : F64
  radius : F64
  luminosity : F64
  place : Place
  epoch : ℚ
  motion : Option Motion
  deriving DecidableEq

/-- `VEGA` (src/bodies/catalog.rs 76-90). -/
def vega : Star := ⟨"Vega".toList, .fin 25.0, .fin 2.135, .fin 2.59, .fin 40.12, ⟨.fin 38.7837, .fin 279.2347, .fin 25.0⟩, 2451545, none⟩

/-- `POLARIS` (src/bodies/catalog.rs 100-114). -/
def polaris : Star := ⟨"Polaris".toList, .fin 433.0, .fin 6.5, .fin 46.0, .fin 2500.0, ⟨.fin 89.26410897, .fin 37.95456067, .fin 433.0⟩, 2451545, none⟩

/-- `SIRIUS` (src/bodies/catalog.rs 124-138). -/
def sirius : Star := ⟨"Sirius".toList, .fin 8.6, .fin 2.063, .fin 1.713, .fin 24.7, ⟨.fin (-16.716115867), .fin 101.28715533, .fin 8.6⟩, 2451545, none⟩

/-- `CANOPUS` (src/bodies/catalog.rs 148-162). -/
def canopus : Star := ⟨"Canopus".toList, .fin 310.0, .fin 8.0, .fin 71.0, .fin 13600.0, ⟨.fin (-52.69566111), .fin 95.98787778, .fin 310.0⟩, 2451545, none⟩

/-- `ARCTURUS` (src/bodies/catalog.rs 172-186). -/
def arcturus : Star := ⟨"Arcturus".toList, .fin 36.7, .fin 1.1, .fin 26.0, .fin 170.0, ⟨.fin 19.1825, .fin 213.9153, .fin 36.7⟩, 2451545, none⟩

/-- `RIGEL` (src/bodies/catalog.rs 196-210). -/
def rigel : Star := ⟨"Rigel".toList, .fin 860.0, .fin 17.0, .fin 78.9, .fin 120000.0, ⟨.fin (-8.20163889), .fin 78.634467, .fin 860.0⟩, 2451545, none⟩

/-- `BETELGEUSE` (src/bodies/catalog.rs 220-234). -/
def betelgeuse : Star := ⟨"Betelgeuse".toList, .fin 548.0, .fin 11.6, .fin 724.0, .fin 14000.0, ⟨.fin 7.407064, .fin 88.792939, .fin 548.0⟩, 2451545, none⟩

/-- `PROCYON` (src/bodies/catalog.rs 244-258). -/
def procyon : Star := ⟨"Procyon".toList, .fin 11.5, .fin 1.499, .fin 2.048, .fin 6.93, ⟨.fin 5.224993, .fin 114.825493, .fin 11.5⟩, 2451545, none⟩

/-- `ALDEBARAN` (src/bodies/catalog.rs 268-282). -/
def aldebaran : Star := ⟨"Aldebaran".toList, .fin 65.1, .fin 1.16, .fin 45.1, .fin 439.0, ⟨.fin 16.509302, .fin 68.980163, .fin 65.1⟩, 2451545, none⟩

/-- `ALTAIR` (src/bodies/catalog.rs 292-306). -/
def altair : Star := ⟨"Altair".toList, .fin 16.7, .fin 1.86, .fin 1.79, .fin 10.6, ⟨.fin 8.868321, .fin 297.695827, .fin 16.7⟩, 2451545, none⟩

/-- `str::to_uppercase` on one character. -/
def upper (rest : Char → List Char) (c : Char) : List Char :=
  if c.toNat < 128 then [if 97 ≤ c.toNat ∧ c.toNat ≤ 122 then Char.ofNat (c.toNat - 32) else c]
  else if c = 'ı' then ['I']
  else if c = 'ſ' then ['S']
  else rest c

/-- The match of `siderust_star_catalog` (siderust-ffi/src/bodies.rs 57-69). -/
def pick : List Char → Option Star
  | ['V', 'E', 'G', 'A'] => some vega
  | ['S', 'I', 'R', 'I', 'U', 'S'] => some sirius
  | ['P', 'O', 'L', 'A', 'R', 'I', 'S'] => some polaris
  | ['C', 'A', 'N', 'O', 'P', 'U', 'S'] => some canopus
  | ['A', 'R', 'C', 'T', 'U', 'R', 'U', 'S'] => some arcturus
  | ['R', 'I', 'G', 'E', 'L'] => some rigel
  | ['B', 'E', 'T', 'E', 'L', 'G', 'E', 'U', 'S', 'E'] => some betelgeuse
  | ['P', 'R', 'O', 'C', 'Y', 'O', 'N'] => some procyon
  | ['A', 'L', 'D', 'E', 'B', 'A', 'R', 'A', 'N'] => some aldebaran
  | ['A', 'L', 'T', 'A', 'I', 'R'] => some altair
  | _ => none

/-- A C string. -/
inductive CText where
  | null
  | invalid
  | text (cs : List Char)

abbrev Heap := Addr → Option Star
abbrev Alloc := Heap → Addr

/-- `Box::into_raw(Box::new(..))` and the store through the output pointer (bodies.rs 71-76, 149-152). -/
def box (A : Alloc) (s : Star) (h : Heap) : Status × Heap × Option Addr :=
  (.ok, fun a => if a = A h then some s else h a, some (A h))

/-- `siderust_star_catalog` (bodies.rs 42-81). -/
def catalog (rest : Char → List Char) (A : Alloc) (name : CText) (out : Addr) (h : Heap) : Status × Heap × Option Addr :=
  match name with
  | .null => (.nullPointer, h, none)
  | .invalid => if out = 0 then (.nullPointer, h, none) else (.invalidArgument, h, none)
  | .text cs =>
    if out = 0 then (.nullPointer, h, none)
    else match pick (cs.flatMap (upper rest)) with
      | some s => box A s h
      | none => (.unknownStar, h, none)

/-- The numbers given to `siderust_star_create`. -/
structure Args where
  distance : F64
  mass : F64
  radius : F64
  luminosity : F64
  ra : F64
  dec : F64
  epoch : F64
  motion : Option Motion

/-- `siderust_star_create` (bodies.rs 91-157); `position` is `Position::new` (right ascension, declination, distance), `none` a
panic, which `ffi_guard!` reports. `jd_from_f64` takes the finite dates. -/
def create (position : F64 → F64 → F64 → Option Place) (A : Alloc) (name : CText) (x : Args) (out : Addr) (h : Heap) :
    Status × Heap × Option Addr :=
  match name with
  | .null => (.nullPointer, h, none)
  | .invalid => if out = 0 then (.nullPointer, h, none) else (.invalidArgument, h, none)
  | .text cs =>
    if out = 0 then (.nullPointer, h, none)
    else match position x.ra x.dec x.distance with
      | none => (.internalPanic, h, none)
      | some p => match x.epoch with
        | .fin e => box A ⟨cs, x.distance, x.mass, x.radius, x.luminosity, p, e, x.motion⟩ h
        | _ => (.invalidArgument, h, none)

/-- `siderust_star_free` (bodies.rs 164-172). -/
def free (p : Addr) (h : Heap) : Option Heap :=
  if p = 0 then some h
  else (h p).map fun _ => fun a => if a = p then none else h a

/-- UTF-8 (`as_bytes`). -/
def bytes (cs : List Char) : List UInt8 := cs.flatMap String.utf8EncodeChar

/-- `siderust_star_name` (bodies.rs 177-204): status, the buffer afterwards, and what is written through `written`. -/
def name (p buf : Addr) (bufLen : Nat) (buffer : List UInt8) (written : Addr) (h : Heap) :
    Option (Status × List UInt8 × Option Nat) :=
  if p = 0 ∨ buf = 0 then some (.nullPointer, buffer, none)
  else (h p).map fun s =>
    if bufLen < (bytes s.name).length + 1 then (.invalidArgument, buffer, none)
    else (.ok, bytes s.name ++ 0 :: buffer.drop ((bytes s.name).length + 1),
      if written = 0 then none else some (bytes s.name).length)

/-- The four numbers (bodies.rs 207-245). -/
inductive Field where
  | distance
  | mass
  | radius
  | luminosity

/-- `siderust_star_distance_ly`, `_mass_solar`, `_radius_solar`, `_luminosity_solar` (bodies.rs 207-245). -/
def get (f : Field) (p : Addr) (h : Heap) : Option F64 :=
  if p = 0 then some .nan
  else (h p).map fun s => match f with
    | .distance => s.distance
    | .mass => s.mass
    | .radius => s.radius
    | .luminosity => s.luminosity

/-- The star arm of `dispatch_subject!` (siderust-ffi/src/ffi_utils.rs 171-177): the coordinate a search runs on. -/
def subject (p : Addr) (h : Heap) : Option (Status × Option (Place × ℚ × Option Motion)) :=
  if p = 0 then some (.nullPointer, none)
  else (h p).map fun s => (.ok, some (s.place, s.epoch, s.motion))

/-! ## A client

The client keeps the handles it was given, in order; a call names a handle by its place in that list, or the null pointer. -/

inductive Call where
  | catalog (name : CText) (out : Addr)
  | create (name : CText) (x : Args) (out : Addr)
  | free (i : Option Nat)
  | name (i : Option Nat) (buf : Addr) (bufLen : Nat) (buffer : List UInt8) (written : Addr)
  | get (f : Field) (i : Option Nat)
  | subject (i : Option Nat)

/-- What a call gives back. -/
inductive Answer where
  | made (s : Status)
  | freed
  | name (r : Status × List UInt8 × Option Nat)
  | number (x : F64)
  | subject (r : Status × Option (Place × ℚ × Option Motion))

/-- The address of a named handle; a name not given yet is not a pointer the client has. -/
def pointer (hs : List Addr) : Option Nat → Option Addr
  | none => some 0
  | some i => hs[i]?

/-- What is around the interface: upper case beyond ASCII, `Position::new`, the allocator. -/
structure World where
  rest : Char → List Char
  position : F64 → F64 → F64 → Option Place
  alloc : Alloc

/-- One call; `none` is undefined behaviour. -/
def call (w : World) (s : Heap × List Addr) : Call → Option ((Heap × List Addr) × Answer)
  | .catalog n out => let r := catalog w.rest w.alloc n out s.1; some ((r.2.1, s.2 ++ r.2.2.toList), .made r.1)
  | .create n x out => let r := create w.position w.alloc n x out s.1; some ((r.2.1, s.2 ++ r.2.2.toList), .made r.1)
  | .free i => (pointer s.2 i).bind fun p => (free p s.1).map fun h => ((h, s.2), .freed)
  | .name i b l bs o => (pointer s.2 i).bind fun p => (name p b l bs o s.1).map fun r => (s, .name r)
  | .get f i => (pointer s.2 i).bind fun p => (get f p s.1).map fun r => (s, .number r)
  | .subject i => (pointer s.2 i).bind fun p => (subject p s.1).map fun r => (s, .subject r)

/-- A run of a client, with the answers it saw. -/
def run (w : World) : Heap × List Addr → List Call → Option ((Heap × List Addr) × List Answer)
  | s, [] => some (s, [])
  | s, x :: xs => (call w s x).bind fun r => (run w r.1 xs).map fun q => (q.1, r.2 :: q.2)

end Verif.CStar
