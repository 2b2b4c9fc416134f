import Verif.Orbit.Props
import Verif.Ffi.Model

/-
Model of the C functions that propagate orbits: `/repo/siderust-ffi/src/coordinates.rs` 1045-1234 and
`/repo/siderust-ffi/src/types.rs` 468-640.

A C number is `Option ℝ`: `none` is NaN or an infinity. What `kepler_position` does with elements that are not
numbers is a parameter (`odd`): nothing is assumed of it. The handle of a prepared orbit is the value behind it;
handles in general are in `Verif.Handles`.
-/
namespace Verif.COrbit
open Verif.Text (Res)
open Verif.Ffi (Status)
open Verif.Orbit

/-- types.rs 468-485, 525-542, 604-621: the three structures have the same layout. `size` is the semi-major axis or the
periapsis distance, `phase` the mean anomaly at the epoch or the mean motion. -/
structure CElements where
  size : Option ℝ
  ecc : Option ℝ
  inc : Option ℝ
  node : Option ℝ
  peri : Option ℝ
  phase : Option ℝ
  epoch : Option ℝ

/-- types.rs: the centres an orbit may have. -/
inductive Centre | bary | helio | geo
  deriving DecidableEq

/-- coordinates.rs 1049-1065: frame `EclipticMeanJ2000` and unit AU are always the same. -/
structure CPos where
  xyz : V
  centre : Centre

/-- What a C caller sees: the status, and what has been written. -/
abbrev Answer := Status × Option CPos

/-- ffi_utils.rs 233-235, `try_jd_f64`. -/
def jdFrom : Option ℝ → Except Status ℝ
  | some x => .ok x
  | none => .error .invalidArgument

/-- coordinates.rs 1068-1075. -/
def centreOf : Nat → Option Centre
  | 0 => some .bary
  | 1 => some .helio
  | 2 => some .geo
  | _ => none

/-- ffi_utils.rs 28-37: a panic becomes a status; otherwise the position is written. -/
def finish (c : Centre) : Res Status V → Answer
  | .ok v => (.ok, some ⟨v, c⟩)
  | .err e => (e, none)
  | .panic => (.internalPanic, none)

/-- The six numbers before the epoch, if all are numbers. -/
def CElements.six (o : CElements) : Option (ℝ × ℝ × ℝ × ℝ × ℝ × ℝ) :=
  match o.size, o.ecc, o.inc, o.node, o.peri, o.phase with
  | some a, some e, some i, some n, some p, some m => some (a, e, i, n, p, m)
  | _, _, _, _, _, _ => none

/-- types.rs 495-505 and coordinates.rs 1084-1104: `siderust_kepler_position_ex`. -/
noncomputable def keplerEx (s : Solver) (odd : CElements → ℝ → Res Status V) (o : CElements) (centre : Nat)
    (date : Option ℝ) (out : Bool) : Answer :=
  if !out then (.nullPointer, none)
  else match centreOf centre with
    | none => (.invalidCenter, none)
    | some c => match jdFrom o.epoch with
      | .error e => (e, none)
      | .ok epoch => match jdFrom date with
        | .error e => (e, none)
        | .ok jd => match o.six with
          | none => finish c (odd o jd)
          | some (a, e, i, n, p, m) => match keplerPosition s ⟨a, e, i, n, p, m, epoch⟩ jd with
            | .ok v => finish c (.ok v)
            | _ => finish c .panic

/-- types.rs 564-575: `try_to_rust_validated`; the constructor refuses what is not a number (conic.rs 306-334). -/
noncomputable def meanMotionOf (o : CElements) : Except Status MeanMotion :=
  match jdFrom o.epoch with
  | .error e => .error e
  | .ok epoch => match o.six with
    | none => .error .invalidArgument
    | some (a, e, i, n, p, m) => match (⟨a, e, i, n, p, m, epoch⟩ : MeanMotion).tryNew with
      | .ok r => .ok r
      | .error _ => .error .invalidArgument

/-- coordinates.rs 1108-1127: `siderust_mean_motion_position`. -/
noncomputable def meanMotion (s : Solver) (o : CElements) (date : Option ℝ) (out : Bool) : Answer :=
  if !out then (.nullPointer, none)
  else match meanMotionOf o with
    | .error e => (e, none)
    | .ok r => match jdFrom date with
      | .error e => (e, none)
      | .ok jd => match meanMotionPosition s r jd with
        | .ok v => finish .helio (.ok v)
        | .err _ => finish .helio (.err .invalidArgument)
        | .panic => finish .helio .panic

/-- types.rs 636-647: `try_to_rust_validated`; the constructor refuses what is not a number (conic.rs 204-236). -/
noncomputable def conicOf (o : CElements) : Except Status Conic :=
  match jdFrom o.epoch with
  | .error e => .error e
  | .ok epoch => match o.six with
    | none => .error .invalidArgument
    | some (q, e, i, n, p, m) => match (⟨q, e, i, n, p, m, epoch⟩ : Conic).tryNew with
      | .ok r => .ok r
      | .error _ => .error .invalidArgument

/-- coordinates.rs 1130-1149: `siderust_conic_position`. -/
noncomputable def conic (s : Solver) (o : CElements) (date : Option ℝ) (out : Bool) : Answer :=
  if !out then (.nullPointer, none)
  else match conicOf o with
    | .error e => (e, none)
    | .ok r => match jdFrom date with
      | .error e => (e, none)
      | .ok jd => match conicPosition s r jd with
        | .ok v => finish .helio (.ok v)
        | .err _ => finish .helio (.err .invalidArgument)
        | .panic => finish .helio .panic

/-- coordinates.rs 1169-1194: `siderust_prepared_orbit_create`; the value is what is put behind the handle. -/
noncomputable def preparedCreate (o : CElements) (out : Bool) : Except Status Prepared :=
  if !out then .error .nullPointer
  else match jdFrom o.epoch with
    | .error e => .error e
    | .ok epoch => match o.six with
      | none => .error .invalidArgument
      | some (a, e, i, n, p, m) => match Prepared.tryFromElements ⟨a, e, i, n, p, m, epoch⟩ with
        | .ok r => .ok r
        | .error _ => .error .invalidArgument

/-- coordinates.rs 1201-1215: `siderust_prepared_orbit_position`; `none` is the null handle. -/
noncomputable def preparedPositionC (s : Solver) (handle : Option Prepared) (date : Option ℝ) (out : Bool) : Answer :=
  match handle with
  | none => (.nullPointer, none)
  | some p =>
    if !out then (.nullPointer, none)
    else match jdFrom date with
      | .error e => (e, none)
      | .ok jd => match preparedPosition s p jd with
        | .ok v => finish .helio (.ok v)
        | _ => finish .helio .panic

end Verif.COrbit
