import Verif.Daf.Bsp
import Verif.Interp.Props
import Verif.Interp.TimeModel
import Verif.Spk.Model

/-!
The ephemeris loaded at run time: from the bytes of a planetary kernel to the positions of Sun, Earth and Moon
(/repo/src/ephemeris/runtime_backend.rs 26-276, /repo/src/ephemeris/jpl/eval.rs 430-545, bodies.rs 85-303).

The reading of the bytes is that of `Verif.Daf`, the evaluation of one segment that of `Verif.Interp`. Arithmetic is
exact; a coefficient that is not a finite number counts as zero (`val`), which the theorems on values exclude. Frame
change and unit conversion are a linear map that is not looked into.
-/
namespace Verif.Runtime
open Verif.Text Verif.Bits Verif.Daf

noncomputable section

abbrev Vec := Fin 3 → ℝ

/-- The number a word stands for. -/
def val (w : BitVec 64) : ℝ := (((fVal w).getD 0 : ℚ) : ℝ)

/-- eval.rs 277-290: `DynSegmentDescriptor::from_spk`. -/
def toDyn (d : SegmentData) : Interp.Dyn ℝ :=
  ⟨d.dataType, (d.init : ℝ), (d.intlen : ℝ), d.ncoeff, d.rsize, d.nRecords, d.records.map val⟩

/-- eval.rs 429-434. -/
structure Seg where
  startEt : BitVec 64
  endEt : BitVec 64
  desc : Interp.Dyn ℝ

/-- eval.rs 467-484: `for_indexed_pair`. -/
def forPair (l : List IndexedSegment) (target center : Int) : List Seg :=
  (l.filter fun s => s.target = target ∧ s.center = center).map fun s => ⟨s.startEt, s.endEt, toDyn s.data⟩

open Classical in
/-- `et >= w` for a finite `et`. -/
def geWord (et : ℝ) (w : BitVec 64) : Bool :=
  match fVal w with
  | some q => decide ((q : ℝ) ≤ et)
  | none => !fIsNan w && fSign w

open Classical in
/-- `et <= w` for a finite `et`. -/
def leWord (et : ℝ) (w : BitVec 64) : Bool :=
  match fVal w with
  | some q => decide (et ≤ (q : ℝ))
  | none => !fIsNan w && !fSign w

/-- eval.rs 487-489. -/
def covers (s : Seg) (et : ℝ) : Bool := geWord et s.startEt && leWord et s.endEt

/-- eval.rs 500-518: the loop over the reversed list; `seen`: an out-of-range error is kept. -/
def selectLoop (et : ℝ) : List Seg → Bool → Res Interp.Err (Interp.Dyn ℝ)
  | [], seen => .err (if seen then .outOfCoverage else .invalidSegment)
  | s :: rest, seen =>
    if covers s et = false then selectLoop et rest true
    else
      match Interp.tryLocate s.desc et with
      | .ok _ => .ok s.desc
      | .err .outOfCoverage => selectLoop et rest true
      | .err e => .err e
      | .panic => .panic

/-- eval.rs 499. -/
def selectEt (segs : List Seg) (et : ℝ) : Res Interp.Err (Interp.Dyn ℝ) := selectLoop et segs.reverse false

/-- `Displacement::new(x, y, z)`. -/
def vec (l : List ℝ) : Vec := fun i => l.getD i 0

def lift (r : Res Interp.Err (List ℝ)) : Res Interp.Err Vec := r.bind fun l => .ok (vec l)

/-- eval.rs 521-528. -/
def positionEt (ev : List ℝ → ℝ → ℝ) (segs : List Seg) (et : ℝ) : Res Interp.Err Vec :=
  (selectEt segs et).bind fun d => lift (Interp.tryPosition ev d et)

/-- eval.rs 530-537. -/
def velocityEt (ev evD : List ℝ → ℝ → ℝ) (segs : List Seg) (et : ℝ) : Res Interp.Err Vec :=
  (selectEt segs et).bind fun d => lift (Interp.tryVelocity ev evD d et)

/-- runtime_backend.rs 27-32. -/
structure Eph where
  sun : List Seg
  emb : List Seg
  moon : List Seg
  earth : Option (List Seg)

/-- runtime_backend.rs 78-99; the numbers are those of spk.rs 50-64. -/
def fromIndexed (l : List IndexedSegment) : Eph :=
  { sun := forPair l 10 0
    emb := forPair l 3 0
    moon := forPair l 301 3
    earth := if 0 < (forPair l 399 3).length then some (forPair l 399 3) else none }

/-- runtime_backend.rs 72-75: after the summaries have been read. -/
def load (ck : Bool) (data : Bytes) (sums : List Summary) : Res Daf.Err Eph :=
  (indexLoop ck data sums).bind fun l => if l = [] then .err .noSegments else .ok (fromIndexed l)

/-- runtime_backend.rs 72-75. -/
def fromBytes (ck : Bool) (other : Bytes → Bool) (fuel : Nat) (data : Bytes) : Option (Res Daf.Err Eph) :=
  (parseIndexed ck other fuel data).map fun r => r.bind fun l => .ok (fromIndexed l)

section queries
-- `cheby` evaluation, its derivative, the mass ratio of Earth and Moon, and the two output conversions.
variable (ev evD : List ℝ → ℝ → ℝ) (ratio : ℝ) (au km : Vec →ₗ[ℝ] Vec)

/-- bodies.rs 91-107, runtime_backend.rs 163-168. -/
def sunBarycentric (e : Eph) (jd : ℝ) : Res Interp.Err Vec :=
  (positionEt ev e.sun (Interp.Time.jdTtToEt jd)).bind fun sun => .ok (au sun)

/-- bodies.rs 118-157, runtime_backend.rs 179-187. -/
def earthBarycentric (e : Eph) (jd : ℝ) : Res Interp.Err Vec :=
  let et := Interp.Time.jdTtToEt jd
  match e.earth with
  | some earth =>
    (positionEt ev e.emb et).bind fun emb => (positionEt ev earth et).bind fun off => .ok (au (emb + off))
  | none =>
    (positionEt ev e.emb et).bind fun emb => (positionEt ev e.moon et).bind fun moon =>
      .ok (au (emb - Spk.earthOffset ratio • moon))

/-- bodies.rs 170-213, runtime_backend.rs 202-215. -/
def earthHeliocentric (e : Eph) (jd : ℝ) : Res Interp.Err Vec :=
  let et := Interp.Time.jdTtToEt jd
  match e.earth with
  | some earth =>
    (positionEt ev e.emb et).bind fun emb => (positionEt ev earth et).bind fun off =>
      (positionEt ev e.sun et).bind fun sun => .ok (au (emb + off - sun))
  | none =>
    (positionEt ev e.emb et).bind fun emb => (positionEt ev e.moon et).bind fun moon =>
      (positionEt ev e.sun et).bind fun sun => .ok (au (emb - Spk.earthOffset ratio • moon - sun))

/-- bodies.rs 227-256, runtime_backend.rs 235-243. -/
def earthVelocity (e : Eph) (jd : ℝ) : Res Interp.Err Vec :=
  let et := Interp.Time.jdTtToEt jd
  match e.earth with
  | some earth =>
    (velocityEt ev evD e.emb et).bind fun emb => (velocityEt ev evD earth et).bind fun off => .ok (au (emb + off))
  | none =>
    (velocityEt ev evD e.emb et).bind fun emb => (velocityEt ev evD e.moon et).bind fun moon =>
      .ok (au (emb - Spk.earthOffset ratio • moon))

/-- bodies.rs 269-303, runtime_backend.rs 255-263. -/
def moonGeocentric (e : Eph) (jd : ℝ) : Res Interp.Err Vec :=
  let et := Interp.Time.jdTtToEt jd
  match e.earth with
  | some earth =>
    (positionEt ev e.moon et).bind fun moon => (positionEt ev earth et).bind fun off => .ok (km (moon - off))
  | none => (positionEt ev e.moon et).bind fun moon => .ok (km (Spk.moonGeo ratio • moon))

/-- runtime_backend.rs 171-176, 190-199, 218-232, 246-252, 266-275: the variants without `try_` panic on an error. -/
def orExpect (r : Res Interp.Err Vec) : Option Vec :=
  match r with
  | .ok v => some v
  | _ => none

end queries
end
end Verif.Runtime
