import Mathlib.Analysis.SpecialFunctions.Trigonometric.Basic
import Verif.TextKernel.Model

/-
Model of `/repo/src/formats/spice/pck.rs`, of the frame table `/repo/src/spice/frame_registry.rs` and of the
rotation queries of `/repo/src/spice/context.rs`. Real arithmetic instead of `f64`.
-/
namespace Verif.Frames
open Verif.Text Verif.TextKernel

/-- `[[f64; 3]; 3]`, first index the row. -/
abbrev M3 := Fin 3 → Fin 3 → ℝ

/-- A matrix from its rows. -/
def rows (a b c d e f g h i : ℝ) : M3 := ![![a, b, c], ![d, e, f], ![g, h, i]]

/-- pck.rs 152-162, context.rs 306-316: sums in the order of the loop. -/
def mat3Mul (l r : M3) : M3 := fun i j => 0 + l i 0 * r 0 j + l i 1 * r 1 j + l i 2 * r 2 j

/-- context.rs 318-324. -/
def mat3Transpose (m : M3) : M3 :=
  rows (m 0 0) (m 1 0) (m 2 0) (m 0 1) (m 1 1) (m 2 1) (m 0 2) (m 1 2) (m 2 2)

/-- context.rs 302-304. -/
def identity3 : M3 := rows 1 0 0 0 1 0 0 0 1

/-- pck.rs 142-145. -/
noncomputable def r1 (a : ℝ) : M3 := rows 1 0 0 0 (Real.cos a) (Real.sin a) 0 (-Real.sin a) (Real.cos a)

/-- pck.rs 147-150. -/
noncomputable def r3 (a : ℝ) : M3 := rows (Real.cos a) (Real.sin a) 0 (-Real.sin a) (Real.cos a) 0 0 0 1

/-- pck.rs 27-37 (radii not used by rotations). -/
structure Body where
  poleRa : List ℝ
  poleDec : List ℝ
  pm : List ℝ

/-- Errors of frame queries (context.rs, error.rs), without their texts. -/
inductive Err where
  | unknownFrame
  | unsupported
  | notLoaded
deriving DecidableEq

/-- pck.rs 46-48: the linear term of one angle, in degrees; indexing an empty list panics. -/
def linear (c : List ℝ) (t : ℝ) : Res Err ℝ :=
  match c with
  | [] => .panic
  | c0 :: rest => .ok (c0 + rest.headD 0 * t)

/-- `to_radians`. -/
noncomputable def toRadians (d : ℝ) : ℝ := d * (Real.pi / 180)

/-- pck.rs 54-60 for angles in radians. -/
noncomputable def poleMatrix (ra dec w : ℝ) : M3 :=
  mat3Mul (mat3Mul (r3 (Real.pi / 2 + ra)) (r1 (Real.pi / 2 - dec))) (r3 (-w))

/-- pck.rs 43-61. -/
noncomputable def rotationToJ2000 (b : Body) (tdb : ℝ) : Res Err M3 :=
  let t := tdb / (36525 * 86400)
  let d := tdb / 86400
  match linear b.poleRa t with
  | .panic => .panic
  | .err e => .err e
  | .ok ra =>
    match linear b.poleDec t with
    | .panic => .panic
    | .err e => .err e
    | .ok dec =>
      match linear b.pm d with
      | .panic => .panic
      | .err e => .err e
      | .ok w => .ok (poleMatrix (toRadians ra) (toRadians dec) (toRadians w))

/-- fk.rs 26-37. -/
inductive FrameClass where
  | inertial | pck | ck | twoVector | dynamic
deriving DecidableEq

/-- fk.rs 48-61 (centre not used by rotations). -/
structure Frame where
  id : Int
  name : Str
  cls : FrameClass
  classId : Int
  tk : Option (M3 × Str)

/-- A text PCK: bodies by identifier (pck.rs 66-69). -/
abbrev Pck := Int → Option Body

/-- context.rs 40-43: what rotation queries use. `frames` in order of loading, the built-in frame first;
`pcks` in order of loading. -/
structure Ctx where
  frames : List Frame
  pcks : List Pck

/-- frame_registry.rs 16-29. -/
def j2000 : Frame := ⟨1, "J2000".toList, .inertial, 1, none⟩

/-- frame_registry.rs 43-51. -/
def frameById (c : Ctx) (id : Int) : Option Frame := c.frames.reverse.find? (fun f => f.id = id)

/-- frame_registry.rs 54-63. -/
def frameByName (c : Ctx) (name : Str) : Option Frame := c.frames.reverse.find? (fun f => f.name = upper name)

/-- context.rs 274-278. -/
noncomputable def bodyLoop (body : Int) (tdb : ℝ) : List Pck → Res Err M3
  | [] => .err .notLoaded
  | p :: rest =>
    match p body with
    | some o => rotationToJ2000 o tdb
    | none => bodyLoop body tdb rest

/-- context.rs 269-282. -/
noncomputable def iauBodyRotation (c : Ctx) (body : Int) (tdb : ℝ) : Res Err M3 := bodyLoop body tdb c.pcks.reverse

/-- context.rs 230-267. The first argument bounds the recursion depth; `none`: not finished. -/
noncomputable def frameToJ2000 (c : Ctx) (tdb : ℝ) : Nat → Int → Option (Res Err M3)
  | 0, _ => none
  | n + 1, id =>
    if id = 1 then some (.ok identity3)
    else
      match frameById c id with
      | none => some (.err .unknownFrame)
      | some spec =>
        match spec.tk with
        | some (m, relName) =>
          match frameByName c relName with
          | none => some (.err .unknownFrame)
          | some rel =>
            match frameToJ2000 c tdb n rel.id with
            | none => none
            | some (.ok r) => some (.ok (mat3Mul r m))
            | some x => some x
        | none =>
          match spec.cls with
          | .pck => some (iauBodyRotation c spec.classId tdb)
          | _ => some (.err .unsupported)

/-- context.rs 158-170. -/
noncomputable def rotationNaif (c : Ctx) (tdb : ℝ) (n : Nat) (fromId toId : Int) : Option (Res Err M3) :=
  if fromId = toId then some (.ok identity3)
  else
    match frameToJ2000 c tdb n fromId with
    | none => none
    | some .panic => some .panic
    | some (.err e) => some (.err e)
    | some (.ok f) =>
      match frameToJ2000 c tdb n toId with
      | none => none
      | some .panic => some .panic
      | some (.err e) => some (.err e)
      | some (.ok t) => some (.ok (mat3Mul (mat3Transpose t) f))

/-! ### Reading a text PCK -/

/-- pck.rs 27-37 with the numbers as read. -/
structure RawBody where
  poleRa : List F64
  poleDec : List F64
  pm : List F64
  radii : Option (List F64)
deriving DecidableEq

/-- pck.rs 87-92. -/
def RawBody.empty : RawBody := ⟨[], [], [], none⟩

/-- pck.rs 111-129. -/
def valueAsArray : TextValue → R (List F64)
  | .int i => .ok [toF i]
  | .float x => .ok [x]
  | .array l =>
    match flatInner l with
    | some xs => .ok xs
    | none => .error ()
  | .text _ => .error ()

/-- pck.rs 131-140. -/
def parseRadii (v : TextValue) : R (List F64) :=
  match valueAsArray v with
  | .error x => .error x
  | .ok [e, p] => .ok [e, e, p]
  | .ok [x, y, z] => .ok [x, y, z]
  | .ok _ => .error ()

/-- pck.rs 93-99. -/
def setField (suffix : Str) (v : TextValue) (b : RawBody) : R RawBody :=
  if suffix = "POLE_RA".toList then (valueAsArray v).map (fun x => { b with poleRa := x })
  else if suffix = "POLE_DEC".toList then (valueAsArray v).map (fun x => { b with poleDec := x })
  else if suffix = "PM".toList then (valueAsArray v).map (fun x => { b with pm := x })
  else if suffix = "RADII".toList then (parseRadii v).map (fun x => { b with radii := some x })
  else .ok b

/-- pck.rs 78-86: body and constant named by a key. -/
def bodyKey (key : Str) : Option (Int × Str) :=
  match stripPrefix "BODY".toList key with
  | none => none
  | some rest =>
    match find1 '_' rest with
    | none => none
    | some (idText, suffix) => (parseInt (2 ^ 31 - 1) idText).map (fun id => (id, suffix))

/-- pck.rs 77-100: one variable. -/
def pckStep (bodies : Int → Option RawBody) (kv : Str × TextValue) : R (Int → Option RawBody) :=
  match bodyKey kv.1 with
  | none => .ok bodies
  | some (id, suffix) =>
    (setField suffix kv.2 ((bodies id).getD .empty)).map
      (fun b => fun i => if i = id then some b else bodies i)

/-- pck.rs 75-102: the variables in the order in which the hash map yields them. -/
def pckFold : List (Str × TextValue) → (Int → Option RawBody) → R (Int → Option RawBody)
  | [], bodies => .ok bodies
  | kv :: rest, bodies =>
    match pckStep bodies kv with
    | .error x => .error x
    | .ok bodies => pckFold rest bodies

end Verif.Frames
