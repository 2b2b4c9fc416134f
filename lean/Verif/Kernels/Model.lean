import Verif.TextKernel.ClockModel
import Verif.Frames.Model

/-
Model of the readers of frame, instrument and spacecraft clock kernels, `/repo/src/formats/spice/fk.rs`,
`ik.rs` and `sclk.rs` (`from_text`), and of the loading of kernels, `/repo/src/spice/context.rs` 63-145
and `/repo/src/spice/kernel_set.rs`, on top of the parser `Verif.TextKernel.parse`.

Error texts are reduced to their kind and the variable they name; `f64` values are exact rationals with
infinities and NaN; the keys of the hash map come in the order of the association list.
-/
namespace Verif.Kernels
open Verif.Text Verif.TextKernel

/-- The errors of the readers. -/
inductive KErr where
  | syntax
  | missing (key : Str)
  | notText (key : Str)
  | notNumeric (key : Str)
  | tooLarge (key : Str)
  | unknownClass (c : Int)
  | badMatrix (key : Str)
  | notNine (key : Str)
  | unsupportedSpec (spec : Str) (id : Int)
  | notThree (key : Str)
  | notTriples (key : Str)
deriving DecidableEq

abbrev K (α : Type) := Except KErr α

/-- `{id}`. -/
def idStr (i : Int) : Str := (if i < 0 then ['-'] else []) ++ natStr i.natAbs

/-- `str::strip_suffix`. -/
def stripSuffix (p s : Str) : Option Str := (stripPrefix p.reverse s.reverse).map List.reverse

/-- Insertion into a strictly increasing list. -/
def insertId (x : Int) : List Int → List Int
  | [] => [x]
  | y :: l => if x < y then x :: y :: l else if x = y then y :: l else y :: insertId x l

/-- `sort_unstable` followed by `dedup` (fk.rs 84-85, ik.rs 80-81, sclk.rs 58-59). -/
def sortDedup (l : List Int) : List Int := l.foldr insertId []

/-- The `for id in ids` loops: the first failing record ends the reading. -/
def readAll {α : Type} (f : Int → K α) : List Int → K (List α)
  | [] => .ok []
  | i :: l =>
    match f i with
    | .error e => .error e
    | .ok x =>
      match readAll f l with
      | .error e => .error e
      | .ok xs => .ok (x :: xs)

/-- `f64 as i32`: truncation towards zero, saturating, zero for NaN. -/
def f64AsI32 : F64 → Int
  | .nan => 0
  | .inf neg => if neg then -(2 ^ 31) else 2 ^ 31 - 1
  | .num q =>
    let t := if 0 ≤ q then ⌊q⌋ else ⌈q⌉
    if t < -(2 ^ 31) then -(2 ^ 31) else if 2 ^ 31 - 1 < t then 2 ^ 31 - 1 else t

/-- fk.rs 198-208. -/
def intValue (v : TextValue) (key : Str) : K Int :=
  match v with
  | .int i => if -(2 ^ 31) ≤ i ∧ i ≤ 2 ^ 31 - 1 then .ok i else .error (.tooLarge key)
  | .float x => .ok (f64AsI32 x)
  | _ => .error (.notNumeric key)

/-- fk.rs 210-217, ik.rs 149-156. -/
def textValue (v : TextValue) (key : Str) : K Str :=
  match v with
  | .text t => .ok t
  | _ => .error (.notText key)

/-- ik.rs 158-166. -/
def scalarValue (v : TextValue) (key : Str) : K F64 :=
  match v with
  | .int i => .ok (toF i)
  | .float x => .ok x
  | _ => .error (.notNumeric key)

/-- `kernel.get(key).ok_or_else(..)`. -/
def need (d : Data) (key : Str) : K TextValue :=
  match get d key with
  | some v => .ok v
  | none => .error (.missing key)

/-- `kernel.get(key).map(f).transpose()`. -/
def optional {α : Type} (d : Data) (key : Str) (f : TextValue → Str → K α) : K (Option α) :=
  match get d key with
  | none => .ok none
  | some v =>
    match f v key with
    | .error e => .error e
    | .ok x => .ok (some x)

/-! ### Frames: fk.rs -/

/-- fk.rs 185-196. -/
def parseFrameClass (c : Int) : K Frames.FrameClass :=
  if c = 1 then .ok .inertial
  else if c = 2 then .ok .pck
  else if c = 3 then .ok .ck
  else if c = 4 then .ok .twoVector
  else if c = 5 then .ok .dynamic
  else .error (.unknownClass c)

/-- fk.rs 48-61; the matrix by rows. -/
structure FrameSpec where
  id : Int
  name : Str
  cls : Frames.FrameClass
  classId : Int
  centerId : Int
  tk : Option (List (List F64) × Str)
deriving DecidableEq

/-- `FRAME_{id}_{field}` and `TKFRAME_{id}_{field}`. -/
def frameKey (id : Int) (field : Str) : Str := "FRAME_".toList ++ idStr id ++ '_' :: field
def tkKey (id : Int) (field : Str) : Str := "TKFRAME_".toList ++ idStr id ++ '_' :: field

/-- fk.rs 76-80. -/
def frameIdOf (key : Str) : Option Int :=
  (stripPrefix "FRAME_".toList key).bind (fun rest =>
    (stripSuffix "_NAME".toList rest).bind (parseInt (2 ^ 31 - 1)))

/-- fk.rs 123-147. -/
def readMatrix (d : Data) (id : Int) : K (List (List F64) × Str) :=
  match getF64Array d (tkKey id "MATRIX".toList) with
  | none => .error (.badMatrix (tkKey id "MATRIX".toList))
  | some [a, b, c, e, f, g, h, i, j] =>
    (need d (tkKey id "RELATIVE".toList)).bind (fun v =>
      (textValue v (tkKey id "RELATIVE".toList)).bind (fun r =>
        .ok ([[a, b, c], [e, f, g], [h, i, j]], upper r)))
  | some _ => .error (.notNine (tkKey id "MATRIX".toList))

/-- fk.rs 115-158. -/
def readTk (d : Data) (id : Int) (cls : Frames.FrameClass) : K (Option (List (List F64) × Str)) :=
  if cls = .twoVector then
    (optional d (tkKey id "SPEC".toList) textValue).bind (fun spec =>
      match spec with
      | none => .ok none
      | some s =>
        if s = "MATRIX".toList then (readMatrix d id).map some
        else .error (.unsupportedSpec s id))
  else .ok none

/-- fk.rs 89-167: one frame. -/
def readFrame (d : Data) (id : Int) : K FrameSpec :=
  (need d (frameKey id "NAME".toList)).bind (fun v =>
    (textValue v (frameKey id "NAME".toList)).bind (fun name =>
      (need d (frameKey id "CLASS".toList)).bind (fun v =>
        (intValue v (frameKey id "CLASS".toList)).bind (fun c =>
          (parseFrameClass c).bind (fun cls =>
            (need d (frameKey id "CLASS_ID".toList)).bind (fun v =>
              (intValue v (frameKey id "CLASS_ID".toList)).bind (fun classId =>
                (need d (frameKey id "CENTER".toList)).bind (fun v =>
                  (intValue v (frameKey id "CENTER".toList)).bind (fun centerId =>
                    (readTk d id cls).bind (fun tk =>
                      .ok ⟨id, upper name, cls, classId, centerId, tk⟩))))))))))

/-- fk.rs 74-170. -/
def framesOf (d : Data) : K (List FrameSpec) :=
  readAll (readFrame d) (sortDedup (d.filterMap (fun kv => frameIdOf kv.1)))

/-- The parser in front of a reader. -/
def withKernel {α : Type} (src : Str) (f : Data → K α) : Option (K α) :=
  match parse src with
  | none => none
  | some (.error _) => some (.error .syntax)
  | some (.ok d) => some (f d)

/-- fk.rs 72-171. -/
def fkFromText (src : Str) : Option (K (List FrameSpec)) := withKernel src framesOf

/-- fk.rs 174-176. -/
def frameById (fs : List FrameSpec) (id : Int) : Option FrameSpec := fs.find? (fun f => f.id = id)

/-- fk.rs 179-182. -/
def frameByName (fs : List FrameSpec) (name : Str) : Option FrameSpec :=
  fs.find? (fun f => f.name = upper name)

/-! ### Instruments: ik.rs -/

/-- ik.rs 26-37. -/
inductive FovShape where
  | circle | rectangle | ellipse | polygon
  | other (s : Str)
deriving DecidableEq

/-- ik.rs 41-54. -/
structure Instrument where
  id : Int
  shape : Option FovShape
  frame : Option Str
  boresight : Option (List F64)
  refAngle : Option F64
  crossAngle : Option F64
deriving DecidableEq

/-- `INS{id}_{field}`. -/
def insKey (id : Int) (field : Str) : Str := "INS".toList ++ idStr id ++ '_' :: field

/-- ik.rs 69-77. -/
def insIdOf (key : Str) : Option Int :=
  (stripPrefix "INS".toList key).bind (fun rest =>
    (find1 '_' rest).bind (fun p => parseInt (2 ^ 31 - 1) p.1))

/-- ik.rs 140-146. -/
def shapeOf (s : Str) : FovShape :=
  if s = "CIRCLE".toList then .circle
  else if s = "RECTANGLE".toList then .rectangle
  else if s = "ELLIPSE".toList then .ellipse
  else if s = "POLYGON".toList then .polygon
  else .other s

/-- ik.rs 138-147. -/
def parseShape (v : TextValue) (key : Str) : K FovShape :=
  (textValue v key).map (fun t => shapeOf (upper t))

/-- ik.rs 91-94. -/
def upperText (v : TextValue) (key : Str) : K Str := (textValue v key).map upper

/-- ik.rs 96-107. -/
def readBoresight (d : Data) (id : Int) : K (Option (List F64)) :=
  match getF64Array d (insKey id "BORESIGHT".toList) with
  | none => .ok none
  | some [a, b, c] => .ok (some [a, b, c])
  | some _ => .error (.notThree (insKey id "BORESIGHT".toList))

/-- ik.rs 85-124. -/
def readInstrument (d : Data) (id : Int) : K Instrument :=
  (optional d (insKey id "FOV_SHAPE".toList) parseShape).bind (fun shape =>
    (optional d (insKey id "FOV_FRAME".toList) upperText).bind (fun frame =>
      (readBoresight d id).bind (fun bore =>
        (optional d (insKey id "FOV_REF_ANGLE".toList) scalarValue).bind (fun ref =>
          (optional d (insKey id "FOV_CROSS_ANGLE".toList) scalarValue).bind (fun cross =>
            .ok ⟨id, shape, frame, bore, ref, cross⟩)))))

/-- ik.rs 67-127. -/
def instrumentsOf (d : Data) : K (List Instrument) :=
  readAll (readInstrument d) (sortDedup (d.filterMap (fun kv => insIdOf kv.1)))

/-- ik.rs 65-128. -/
def ikFromText (src : Str) : Option (K (List Instrument)) := withKernel src instrumentsOf

/-- ik.rs 131-135. -/
def instrument (is : List Instrument) (id : Int) : Option Instrument := is.find? (fun i => i.id = id)

/-! ### Spacecraft clocks: sclk.rs 47-90 -/

/-- sclk.rs 27-34. -/
structure Coeff where
  sclkdp : F64
  et : F64
  rate : F64
deriving DecidableEq

/-- sclk.rs 37-43. -/
structure Clock where
  scId : Int
  coefficients : List Coeff
deriving DecidableEq

/-- `SCLK01_COEFFICIENTS_{id}`. -/
def sclkKey (id : Int) : Str := "SCLK01_COEFFICIENTS_".toList ++ idStr id

/-- sclk.rs 51-54. -/
def sclkIdOf (key : Str) : Option Int :=
  (stripPrefix "SCLK01_COEFFICIENTS_".toList key).bind (parseInt (2 ^ 31 - 1))

/-- sclk.rs 154-172 (nested arrays are refused). -/
def valueAsArray (v : TextValue) (key : Str) : K (List F64) :=
  match v with
  | .int i => .ok [toF i]
  | .float x => .ok [x]
  | .array l =>
    match flatInner l with
    | some xs => .ok xs
    | none => .error (.notNumeric key)
  | .text _ => .error (.notNumeric key)

/-- sclk.rs 70-82. -/
def triples (key : Str) : List F64 → K (List Coeff)
  | [] => .ok []
  | a :: b :: c :: l => (triples key l).map (fun r => ⟨a, b, c⟩ :: r)
  | _ => .error (.notTriples key)

/-- Insertion before the entries that are not earlier. -/
def insertCoeff (x : Coeff) : List Coeff → List Coeff
  | [] => [x]
  | y :: l => if leF x.et y.et then x :: y :: l else y :: insertCoeff x l

/-- sclk.rs 83: the stable sort by `et`. -/
def sortCoeffs (l : List Coeff) : List Coeff := l.foldr insertCoeff []

/-- sclk.rs 63-87: one clock. -/
def readClock (d : Data) (id : Int) : K Clock :=
  (need d (sclkKey id)).bind (fun v =>
    (valueAsArray v (sclkKey id)).bind (fun xs =>
      (triples (sclkKey id) xs).bind (fun cs => .ok ⟨id, sortCoeffs cs⟩)))

/-- sclk.rs 49-89. -/
def clocksOf (d : Data) : K (List Clock) :=
  readAll (readClock d) (sortDedup (d.filterMap (fun kv => sclkIdOf kv.1)))

/-- sclk.rs 47-90. -/
def sclkFromText (src : Str) : Option (K (List Clock)) := withKernel src clocksOf

/-! ### Loading: context.rs 63-145 -/

/-- What a context holds (kernel_set.rs 26-34, context.rs 40-43), newest last; the contents of binary kernels
are left open. -/
structure Ctx (Spk Ck : Type) where
  spk : List (Str × Spk)
  ck : List (Str × Ck)
  lsk : Option (Str × Lsk)
  fk : List (Str × List FrameSpec)
  pck : List (Str × (Int → Option Frames.RawBody))
  sclk : List (Str × Clock)
  ik : List (Str × List Instrument)
  /-- frame_registry.rs: the frames in order of loading -/
  registry : List FrameSpec

/-- The outcome of loading. -/
inductive LErr where
  | kernel (e : KErr)
  | unsupported
  | notText
deriving DecidableEq

variable {Spk Ck : Type}

/-- `str::contains`. -/
def contains (p : Str) : Str → Bool
  | [] => p.isEmpty
  | c :: s => p.isPrefixOf (c :: s) || contains p s

/-- context.rs 109-121: the kinds of variables present. -/
def hasLsk (d : Data) : Bool :=
  (get d "DELTET/DELTA_T_A".toList).isSome || (get d "DELTET/DELTA_AT".toList).isSome
def hasFk (d : Data) : Bool := d.any (fun kv => "FRAME_".toList.isPrefixOf kv.1)
def hasPck (d : Data) : Bool :=
  d.any (fun kv => "BODY".toList.isPrefixOf kv.1 &&
    (contains "_POLE_RA".toList kv.1 || contains "_RADII".toList kv.1))
def hasSclk (d : Data) : Bool := d.any (fun kv => "SCLK01_COEFFICIENTS_".toList.isPrefixOf kv.1)
def hasIk (d : Data) : Bool := d.any (fun kv => "INS".toList.isPrefixOf kv.1 && contains "_FOV".toList kv.1)

/-- lsk.rs 36-74 on the table of variables. -/
def lskOf (d : Data) : K Lsk :=
  match get d "DELTET/DELTA_T_A".toList with
  | none => .error .syntax
  | some v =>
    match scalarAsF64 v with
    | .error _ => .error .syntax
    | .ok dta =>
      match get d "DELTET/DELTA_AT".toList with
      | some (.array l) =>
        match leapPairs l with
        | .error _ => .error .syntax
        | .ok t => .ok ⟨dta, sortTable t⟩
      | _ => .error .syntax

/-- pck.rs 72-105 on the table of variables. -/
def pckOf (d : Data) : K (Int → Option Frames.RawBody) :=
  match Frames.pckFold d (fun _ => none) with
  | .error _ => .error .syntax
  | .ok b => .ok b

/-- One step of the loading: skipped unless the variables are present; on an error the context keeps what
was added before. -/
def step {α : Type} (present : Data → Bool) (read : Data → K α) (put : α → Ctx Spk Ck → Ctx Spk Ck) (d : Data)
    (c : Ctx Spk Ck) : Except LErr Unit × Ctx Spk Ck :=
  if present d then
    match read d with
    | .error e => (.error (.kernel e), c)
    | .ok x => (.ok (), put x c)
  else (.ok (), c)

/-- Two steps, the second only after success. -/
def andThen (a b : Ctx Spk Ck → Except LErr Unit × Ctx Spk Ck) (c : Ctx Spk Ck) : Except LErr Unit × Ctx Spk Ck :=
  match a c with
  | (.error e, c) => (.error e, c)
  | (.ok _, c) => b c

/-- context.rs 123-126 with kernel_set.rs 53-55. -/
def loadLsk (label : Str) (d : Data) : Ctx Spk Ck → Except LErr Unit × Ctx Spk Ck :=
  step hasLsk lskOf (fun x c => { c with lsk := some (label, x) }) d

/-- context.rs 127-131 with frame_registry.rs 32-40. -/
def loadFk (label : Str) (d : Data) : Ctx Spk Ck → Except LErr Unit × Ctx Spk Ck :=
  step hasFk framesOf (fun x c => { c with registry := c.registry ++ x, fk := c.fk ++ [(label, x)] }) d

/-- context.rs 132-135. -/
def loadPck (label : Str) (d : Data) : Ctx Spk Ck → Except LErr Unit × Ctx Spk Ck :=
  step hasPck pckOf (fun x c => { c with pck := c.pck ++ [(label, x)] }) d

/-- context.rs 136-140. -/
def loadSclk (label : Str) (d : Data) : Ctx Spk Ck → Except LErr Unit × Ctx Spk Ck :=
  step hasSclk clocksOf (fun x c => { c with sclk := c.sclk ++ x.map (fun k => (label, k)) }) d

/-- context.rs 141-143. -/
def loadIk (label : Str) (d : Data) : Ctx Spk Ck → Except LErr Unit × Ctx Spk Ck :=
  step hasIk instrumentsOf (fun x c => { c with ik := c.ik ++ [(label, x)] }) d

/-- context.rs 107-145. -/
def loadTextKernel (label text : Str) (c : Ctx Spk Ck) : Option (Except LErr Unit × Ctx Spk Ck) :=
  match parse text with
  | none => none
  | some (.error _) => some (.error (.kernel .syntax), c)
  | some (.ok d) =>
    some (andThen (loadLsk label d) (andThen (loadFk label d) (andThen (loadPck label d)
      (andThen (loadSclk label d) (loadIk label d)))) c)

/-- The decoding of bytes and the binary readers: `str::from_utf8`, `SpkKernel::from_bytes`,
`CkKernel::from_bytes`. -/
structure Env (Spk Ck : Type) where
  utf8 : List UInt8 → Option Str
  spk : List UInt8 → K Spk
  ck : List UInt8 → K Ck

/-- context.rs 69-76. -/
def locator (E : Env Spk Ck) (bytes : List UInt8) : Str :=
  if 8 ≤ bytes.length then upper (trim ((E.utf8 (bytes.take 8)).getD [])) else []

/-- context.rs 63-105. -/
def loadBytes (E : Env Spk Ck) (label : Str) (bytes : List UInt8) (c : Ctx Spk Ck) :
    Option (Except LErr Unit × Ctx Spk Ck) :=
  let l := locator E bytes
  if "DAF/SPK".toList.isPrefixOf l then
    match E.spk bytes with
    | .error e => some (.error (.kernel e), c)
    | .ok k => some (.ok (), { c with spk := c.spk ++ [(label, k)] })
  else if "DAF/CK".toList.isPrefixOf l then
    match E.ck bytes with
    | .error e => some (.error (.kernel e), c)
    | .ok k => some (.ok (), { c with ck := c.ck ++ [(label, k)] })
  else if "DAF/PCK".toList.isPrefixOf l || "DAF/BPC".toList.isPrefixOf l then some (.error .unsupported, c)
  else if "DAF/DSK".toList.isPrefixOf l || "DAF/EK".toList.isPrefixOf l then some (.error .unsupported, c)
  else
    match E.utf8 bytes with
    | none => some (.error .notText, c)
    | some t => loadTextKernel label t c

end Verif.Kernels
