import Verif.Targets.Model

/-!
# Handles of generic targets

Model of the C functions of `siderust-ffi/src/target.rs` (lines 184-310) on a heap of boxed targets.

Simplifications: the heap is a partial map from addresses; a read or a release outside of it is undefined behaviour
(`none`); what a call writes through its output pointer is part of its result. `Targets.build` is `build_inner_target`, with
the simplifications said there (the angles of a direction and the components of a proper motion are finite).
-/

namespace Verif.CTarget

open Verif.Earth (Ctx)
open Verif.Star (ProperMotion Convention)
open Verif.Targets (Target Data Num build)
open Verif.Ffi (Status)

abbrev Addr := Nat

/-- `SiderustGenericTarget` (target.rs 41-46). -/
structure Handle where
  inner : Target
  data : Data

abbrev Heap := Addr → Option Handle
abbrev Alloc := Heap → Addr

/-- `siderust_generic_target_create` (target.rs 184-204). -/
noncomputable def create (c : Ctx) (A : Alloc) (d : Data) (out : Addr) (h : Heap) : Status × Heap × Option Addr :=
  if out = 0 then (.nullPointer, h, none)
  else match build c d with
    | .error s => (s, h, none)
    | .ok t => (.ok, fun a => if a = A h then some ⟨t, d⟩ else h a, some (A h))

/-- `default_proper_motion` (target.rs 48-55). -/
noncomputable def defaultMotion : ProperMotion := ⟨0, 0, .muAlpha⟩

/-- `siderust_generic_target_create_icrs` (target.rs 208-230). -/
noncomputable def createIcrs (c : Ctx) (A : Alloc) (ra dec : ℝ) (epoch : Num) (out : Addr) (h : Heap) :
    Status × Heap × Option Addr :=
  create c A ⟨.direction ⟨dec, ra, .icrs⟩, epoch, false, defaultMotion⟩ out h

/-- `siderust_generic_target_create_icrs_with_pm` (target.rs 234-263). -/
noncomputable def createIcrsWithPm (c : Ctx) (A : Alloc) (ra dec : ℝ) (epoch : Num) (pmRa pmDec : ℝ) (conv : Convention)
    (out : Addr) (h : Heap) : Status × Heap × Option Addr :=
  create c A ⟨.direction ⟨dec, ra, .icrs⟩, epoch, true, ⟨pmRa, pmDec, conv⟩⟩ out h

/-- `siderust_generic_target_free` (target.rs 270-275). -/
def free (p : Addr) (h : Heap) : Option Heap :=
  if p = 0 then some h
  else (h p).map fun _ => fun a => if a = p then none else h a

/-- `siderust_generic_target_get_data` (target.rs 278-291). -/
def getData (p out : Addr) (h : Heap) : Option (Status × Option Data) :=
  if p = 0 ∨ out = 0 then some (.nullPointer, none)
  else (h p).map fun t => (.ok, some t.data)

/-- `siderust_generic_target_epoch_jd` (target.rs 294-307). -/
def epochJd (p out : Addr) (h : Heap) : Option (Status × Option Num) :=
  if p = 0 ∨ out = 0 then some (.nullPointer, none)
  else (h p).map fun t => (.ok, some t.data.epoch)

/-! ## A client

The client keeps the handles it was given, in order; a call names a handle by its place in that list, or the null pointer. -/

inductive Call where
  | create (d : Data) (out : Addr)
  | icrs (ra dec : ℝ) (epoch : Num) (out : Addr)
  | icrsPm (ra dec : ℝ) (epoch : Num) (pmRa pmDec : ℝ) (conv : Convention) (out : Addr)
  | free (i : Option Nat)
  | data (i : Option Nat) (out : Addr)
  | epoch (i : Option Nat) (out : Addr)

/-- What a call gives back. -/
inductive Answer where
  | made (s : Status)
  | freed
  | data (s : Status) (d : Option Data)
  | epoch (s : Status) (e : Option Num)

/-- The address of a named handle; a name not given yet is not a pointer the client has. -/
def pointer (hs : List Addr) : Option Nat → Option Addr
  | none => some 0
  | some i => hs[i]?

/-- One call; `none` is undefined behaviour. -/
noncomputable def call (c : Ctx) (A : Alloc) (s : Heap × List Addr) : Call → Option ((Heap × List Addr) × Answer)
  | .create d out => let r := create c A d out s.1; some ((r.2.1, s.2 ++ r.2.2.toList), .made r.1)
  | .icrs ra dec e out => let r := createIcrs c A ra dec e out s.1; some ((r.2.1, s.2 ++ r.2.2.toList), .made r.1)
  | .icrsPm ra dec e x y k out =>
    let r := createIcrsWithPm c A ra dec e x y k out s.1; some ((r.2.1, s.2 ++ r.2.2.toList), .made r.1)
  | .free i => (pointer s.2 i).bind fun p => (free p s.1).map fun h => ((h, s.2), .freed)
  | .data i out => (pointer s.2 i).bind fun p => (getData p out s.1).map fun r => (s, .data r.1 r.2)
  | .epoch i out => (pointer s.2 i).bind fun p => (epochJd p out s.1).map fun r => (s, .epoch r.1 r.2)

/-- A run of a client, with the answers it saw. -/
noncomputable def run (c : Ctx) (A : Alloc) : Heap × List Addr → List Call → Option ((Heap × List Addr) × List Answer)
  | s, [] => some (s, [])
  | s, x :: xs => (call c A s x).bind fun r => (run c A r.1 xs).map fun q => (q.1, r.2 :: q.2)

end Verif.CTarget
