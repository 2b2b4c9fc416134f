import Verif.Text.Model
import Mathlib.Analysis.SpecialFunctions.Complex.Arg
import Mathlib.Analysis.SpecialFunctions.Trigonometric.Inverse

/-!
Model of `/repo/src/formats/adsb/mod.rs` (frame, parity, payload decoders) and
`/repo/src/formats/adsb/cpr.rs` (compact position reporting).

Integer code is modelled on the machine widths it uses or on `Nat` where no operation can leave the
range. Floating point is exact real arithmetic; the only place where the code can make a NaN on
real input (`rem_euclid(0.0)`) is an explicit `none`.
-/
namespace Verif.Adsb
open Verif.Text

abbrev Byte := BitVec 8

/-! ### CRC-24 -/

/-- mod.rs:106 -/
def GENERATOR : BitVec 32 := 0x00FFF409#32

/-- Inner loop body, mod.rs:117-120. -/
def crcStep (crc : BitVec 32) : BitVec 32 :=
  let c := crc <<< 1
  if c &&& 0x01000000#32 ≠ 0#32 then c ^^^ GENERATOR else c

/-- Outer loop body, mod.rs:115-121. -/
def crcByte (crc : BitVec 32) (b : Byte) : BitVec 32 :=
  crcStep^[8] (crc ^^^ (b.setWidth 32 <<< 16))

/-- `crc24`, mod.rs:112-124. -/
def crc24 (data : List Byte) : BitVec 32 := data.foldl crcByte 0#32 &&& 0x00FFFFFF#32

/-! ### Frame -/

/-- `FormatError` of this module; the payload (text) is not modelled, only which check failed. -/
inductive Err where
  | length | hexDigit | crc | downlinkFormat | typeCode | reservedChar | subType | nlMismatch
deriving DecidableEq, Repr

/-- `AdsbFrame`, mod.rs:67-70. The array length 14 is part of the type in Rust. -/
structure Frame where
  bytes : List Byte
  size : bytes.length = 14
deriving DecidableEq

/-- Array indexing inside the bounds fixed by the type. -/
def Frame.at (f : Frame) (i : Fin 14) : Byte := f.bytes[i.val]'(by have := f.size; omega)

/-- `hex_nibble`, mod.rs:206-213. -/
def hexNibble (c : UInt8) : Option Nat :=
  let n := c.toNat
  if 48 ≤ n ∧ n ≤ 57 then some (n - 48)
  else if 97 ≤ n ∧ n ≤ 102 then some (n - 97 + 10)
  else if 65 ≤ n ∧ n ≤ 70 then some (n - 65 + 10)
  else none

/-- The loop over `chunks(2)`, mod.rs:170-186. An odd last chunk cannot occur for 28 bytes. -/
def hexBytes : List UInt8 → Option (List Byte)
  | a :: b :: rest => do
    let hi ← hexNibble a
    let lo ← hexNibble b
    let more ← hexBytes rest
    pure (BitVec.ofNat 8 ((hi <<< 4) ||| lo) :: more)
  | [_] => none
  | [] => some []

/-- `parse_frame`, mod.rs:161-203. -/
def parseFrame (hex : Str) : Res Err Frame :=
  if blen hex ≠ 28 then .err .length
  else match hexBytes (utf8 hex) with
    | none => .err .hexDigit
    | some bytes =>
      if h : bytes.length = 14 then
        if crc24 bytes ≠ 0#32 then .err .crc
        else
          let f : Frame := ⟨bytes, h⟩
          let df := (f.at 0).toNat >>> 3
          if df ≠ 17 ∧ df ≠ 18 then .err .downlinkFormat else .ok f
      else .panic

/-- `downlink_format`, mod.rs:76-78 -/
def Frame.downlinkFormat (f : Frame) : Nat := (f.at 0).toNat >>> 3

/-- `icao24`, mod.rs:82-84 -/
def Frame.icao24 (f : Frame) : Nat :=
  ((f.at 1).toNat <<< 16) ||| ((f.at 2).toNat <<< 8) ||| (f.at 3).toNat

/-- `me`, mod.rs:88-92: `me[i] = bytes[4 + i]`. -/
def Frame.me (f : Frame) (i : Fin 7) : Nat := (f.at ⟨4 + i.val, by omega⟩).toNat

/-- `type_code`, mod.rs:96-98 -/
def Frame.typeCode (f : Frame) : Nat := (f.at 4).toNat >>> 3

/-! ### Identification -/

/-- `CHARSET`, mod.rs:309 -/
def charset : Str := "#ABCDEFGHIJKLMNOPQRSTUVWXYZ##### ###############0123456789######".toList

/-- The 48 callsign bits, mod.rs:311-316. -/
def callsignBits (f : Frame) : Nat :=
  (f.me 1 <<< 40) ||| (f.me 2 <<< 32) ||| (f.me 3 <<< 24) ||| (f.me 4 <<< 16) ||| (f.me 5 <<< 8)
    ||| f.me 6

/-- Loop of mod.rs:317-328 for the remaining character positions. -/
def callsignLoop (bits : Nat) : List Nat → Str → Res Err Str
  | [], acc => .ok acc
  | i :: is, acc =>
    let idx := (bits >>> (42 - i * 6)) &&& 0x3F
    match charset[idx]? with
    | none => .panic
    | some ch => if ch = '#' then .err .reservedChar else callsignLoop bits is (acc ++ [ch])

/-- `IdentificationMessage`, mod.rs:236-242 -/
structure Identification where
  category : Nat
  callsign : Str
deriving DecidableEq

/-- `decode_identification`, mod.rs:297-331 -/
def decodeIdentification (f : Frame) : Res Err Identification :=
  let tc := f.typeCode
  if ¬ (1 ≤ tc ∧ tc ≤ 4) then .err .typeCode
  else do
    let s ← callsignLoop (callsignBits f) (List.range 8) []
    .ok ⟨f.me 0 &&& 0x07, (s.reverse.dropWhile (· = ' ')).reverse⟩

/-! ### Airborne position -/

/-- `AirbornePositionMessage`, mod.rs:246-259 -/
structure Position where
  surveillanceStatus : Nat
  singleAntenna : Bool
  encodedAltitude : Nat
  cprOdd : Bool
  cprLat : Nat
  cprLon : Nat
deriving DecidableEq

/-- `decode_airborne_position`, mod.rs:342-366 -/
def decodePosition (f : Frame) : Res Err Position :=
  let tc := f.typeCode
  if ¬ (9 ≤ tc ∧ tc ≤ 18) then .err .typeCode
  else .ok {
    surveillanceStatus := (f.me 0 >>> 1) &&& 0x03
    singleAntenna := (f.me 0 &&& 0x01) != 0
    encodedAltitude := (f.me 1 <<< 4) ||| (f.me 2 >>> 4)
    cprOdd := (f.me 2 &&& 0x04) != 0
    cprLat := ((f.me 2 &&& 0x03) <<< 15) ||| (f.me 3 <<< 7) ||| (f.me 4 >>> 1)
    cprLon := ((f.me 4 &&& 0x01) <<< 16) ||| (f.me 5 <<< 8) ||| f.me 6 }

/-- `decode_altitude`, mod.rs:448-464; metres as an exact rational. -/
def decodeAltitude (encoded : BitVec 16) : Option ℚ :=
  if encoded = 0#16 then none
  else
    let e := encoded.toNat
    if (e >>> 4) &&& 1 = 1 then
      let n : ℤ := ((((e >>> 5) <<< 4) ||| (e &&& 0x0F) : ℕ) : ℤ) * 25 - 1000
      some ((n : ℚ) * (3048 / 10000))
    else none

/-! ### Airborne velocity -/

/-- `f64::rem_euclid` with a positive divisor, exactly. -/
noncomputable def remEuclid (x y : ℝ) : ℝ := x - y * (⌊x / y⌋ : ℤ)

/-- `y.atan2(x)` -/
noncomputable def atan2 (y x : ℝ) : ℝ := Complex.arg ⟨x, y⟩

/-- `AirborneVelocityMessage`, mod.rs:262-271 -/
structure Velocity where
  heading : Option ℝ
  groundSpeed : Option ℝ
  verticalRate : Option ℝ

/-- `decode_airborne_velocity`, mod.rs:373-421 -/
noncomputable def decodeVelocity (f : Frame) : Res Err Velocity :=
  if f.typeCode ≠ 19 then .err .typeCode
  else
    let subType := f.me 0 &&& 0x07
    if subType = 1 ∨ subType = 2 then
      let signEw : ℝ := if (f.me 1 &&& 0x04) ≠ 0 then -1 else 1
      let vEw : ℝ := (((f.me 1 &&& 0x03) <<< 8 ||| f.me 2 : ℕ) : ℝ) - 1
      let signNs : ℝ := if (f.me 3 &&& 0x80) ≠ 0 then -1 else 1
      let vNs : ℝ := (((f.me 3 &&& 0x7F) <<< 3 ||| f.me 4 >>> 5 : ℕ) : ℝ) - 1
      let scale : ℝ := if subType = 2 then 4 else 1
      let vewMps := signEw * vEw * scale * 0.514444
      let vnsMps := signNs * vNs * scale * 0.514444
      let gs := Real.sqrt (vewMps * vewMps + vnsMps * vnsMps)
      let heading := if vEw = 0 ∧ vNs = 0 then none
        else some (remEuclid (atan2 vewMps vnsMps * (180 / Real.pi)) 360)
      let vrSign : ℝ := if (f.me 4 &&& 0x08) ≠ 0 then -1 else 1
      let vrRaw : ℝ := (((f.me 4 &&& 0x07) <<< 6 ||| f.me 5 >>> 2 : ℕ) : ℝ) - 1
      let vrFpm := vrSign * vrRaw * 64
      let vrMps := vrFpm * 0.00508
      .ok ⟨heading, some gs, some vrMps⟩
    else .err .subType

/-! ### Compact position reporting -/

/-- cpr.rs:29 -/
noncomputable def NZ : ℝ := 15

/-- `dlat`, cpr.rs:35-37 -/
noncomputable def dlat (odd : Bool) : ℝ := 360 / (4 * NZ - if odd then 1 else 0)

/-- `f64::clamp`. -/
noncomputable def clamp (x lo hi : ℝ) : ℝ := if x < lo then lo else if hi < x then hi else x

/-- `nl`, cpr.rs:44-54. `Real.arccos` agrees with `acos` on `[-1, 1]`; `nl_arg_range` shows the
argument is in that range. -/
noncomputable def nl (lat : ℝ) : ℝ :=
  if 87 ≤ |lat| then 1
  else
    let cosLat := Real.cos (lat * (Real.pi / 180))
    let numer := 1 - Real.cos (Real.pi / (2 * NZ))
    let arg := 1 - numer / (cosLat * cosLat)
    let n : ℝ := (⌊2 * Real.pi / Real.arccos arg⌋ : ℤ)
    clamp n 1 59

/-- `if lat >= 270.0 { lat - 360.0 } else { lat }`, cpr.rs:102-103, 180. -/
noncomputable def foldLat (lat : ℝ) : ℝ := if 270 ≤ lat then lat - 360 else lat

/-- `if lon >= 180.0 { lon - 360.0 } else { lon }`, cpr.rs:141, 191. -/
noncomputable def foldLon (lon : ℝ) : ℝ := if 180 ≤ lon then lon - 360 else lon

/-- `a.rem_euclid(b)`: NaN when `b` is zero. -/
noncomputable def remEuclidNaN (a b : ℝ) : Option ℝ := if b = 0 then none else some (remEuclid a b)

/-- `decode_globally`, cpr.rs:87-144. The longitude is `none` when it is NaN. -/
noncomputable def decodeGlobally (lat0 lon0 lat1 lon1 : Nat) (oddIsLatest : Bool) :
    Res Err (ℝ × Option ℝ) :=
  let dlat0 := dlat false
  let dlat1 := dlat true
  let j : ℝ := (⌊59 * ((lat0 : ℝ) / 131072) - 60 * ((lat1 : ℝ) / 131072) + 0.5⌋ : ℤ)
  let latE := foldLat (dlat0 * (remEuclid j 60 + (lat0 : ℝ) / 131072))
  let latO := foldLat (dlat1 * (remEuclid j 59 + (lat1 : ℝ) / 131072))
  if |nl latE - nl latO| > 0.5 then .err .nlMismatch
  else
    let lat := if oddIsLatest then latO else latE
    let nlLat := nl lat
    let m : ℝ := (⌊(lon0 : ℝ) * (nlLat - 1) / 131072 - (lon1 : ℝ) * nlLat / 131072 + 0.5⌋ : ℤ)
    let lon : Option ℝ :=
      if oddIsLatest then
        let dlon := if nlLat ≤ 1 then 360 else 360 / (nlLat - 1)
        (remEuclidNaN m (nlLat - 1)).map (fun r => dlon * (r + (lon1 : ℝ) / 131072))
      else
        let dlon := if nlLat < 1 then 360 else 360 / nlLat
        (remEuclidNaN m nlLat).map (fun r => dlon * (r + (lon0 : ℝ) / 131072))
    .ok (lat, lon.map foldLon)

/-- `decode_locally`, cpr.rs:170-194. -/
noncomputable def decodeLocally (cprLat cprLon : Nat) (odd : Bool) (refLat refLon : ℝ) : ℝ × ℝ :=
  let dLat := dlat odd
  let j : ℝ := (⌊refLat / dLat - (cprLat : ℝ) / 131072 + 0.5⌋ : ℤ)
  let lat := foldLat (dLat * (j + (cprLat : ℝ) / 131072))
  let nlVal := nl lat
  let nLon := if odd then max (nlVal - 1) 1 else max nlVal 1
  let dLon := 360 / nLon
  let m : ℝ := (⌊refLon / dLon - (cprLon : ℝ) / 131072 + 0.5⌋ : ℤ)
  let lon := foldLon (dLon * (m + (cprLon : ℝ) / 131072))
  (lat, lon)

end Verif.Adsb
