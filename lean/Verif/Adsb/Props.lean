import Verif.Adsb.Detect
import Verif.Adsb.Fields
import Verif.Adsb.Cpr
import Mathlib.Tactic.NormNum.DivMod

/-!
Properties C09-C15: ADS-B frames, payloads and compact position reports.
-/
namespace Verif.Adsb.Props
open Verif.Text Polynomial

/-! ### C09 parity -/

/-- The parity register after any byte string holds the remainder of `X^24 M(X)` modulo the Mode S
generator polynomial. -/
theorem crc_is_remainder (data : List Byte) :
    regPoly (crc24 data) = (X ^ 24 * Spec.msg data) %ₘ Spec.G ∧ (crc24 data).toNat < 2 ^ 24 :=
  ⟨crc24_poly data, crc24_lt data⟩

/-- Zero residue over the whole frame: the message polynomial is a multiple of the generator. -/
theorem residue_zero_iff (data : List Byte) : crc24 data = 0#32 ↔ Spec.G ∣ Spec.msg data :=
  crc24_zero_iff data

/-- Checking the whole frame for zero is the same as comparing the parity of the bytes before the
last three with those three bytes. -/
theorem residue_zero_iff_parity (d : List Byte) (p0 p1 p2 : Byte) :
    crc24 (d ++ [p0, p1, p2]) = 0#32 ↔ crc24 d = parityReg p0 p1 p2 := parity_iff d p0 p1 p2

/-- Every burst of at most 24 bits is detected, whatever the length of the frame. -/
theorem burst_detected (a b : List Byte) (hlen : a.length = b.length) (hne : a ≠ b) (start : Nat)
    (hburst : ∀ i ∈ Spec.errors a b, start ≤ i ∧ i < start + 24) (ha : crc24 a = 0#32) :
    crc24 b ≠ 0#32 := burst_detected' hlen hne start hburst ha

/-- Every odd number of bit errors is detected (so in particular every single-bit error). -/
theorem odd_errors_detected (a b : List Byte) (hlen : a.length = b.length)
    (hodd : (Spec.errors a b).card % 2 = 1) (ha : crc24 a = 0#32) : crc24 b ≠ 0#32 :=
  odd_detected' hlen hodd ha

/-- In a 112-bit frame every pattern of one to five bit errors is detected. -/
theorem five_errors_detected (a b : List Byte) (hl : a.length = 14) (hlen : a.length = b.length)
    (hne : a ≠ b) (hfew : (Spec.errors a b).card ≤ 5) (ha : crc24 a = 0#32) : crc24 b ≠ 0#32 :=
  few_detected' hl hlen hne hfew ha

/-- A valid frame (Sun 2021 §4.2) and a copy with two bits of byte 6 flipped: the hypotheses of the
detection theorems hold of it. -/
def sampleBytes : List Byte :=
  [0x8D, 0x40, 0x62, 0x1D, 0x58, 0xC3, 0x82, 0xD6, 0x90, 0xC8, 0xAC, 0x28, 0x63, 0xA7]

example : crc24 sampleBytes = 0#32 := by decide +kernel

example : Spec.errors sampleBytes (sampleBytes.set 6 0x02) = {48} := by decide +kernel

/-! ### C10 frame acceptance -/

theorem frame_ext {f g : Frame} (h : f.bytes = g.bytes) : f = g := by
  cases f; cases g; simp only at h; subst h; rfl

/-- `parse_frame` accepts exactly the texts of 28 hexadecimal digits whose 112-bit number is a
multiple of the generator and whose first five bits are 17 or 18, and returns those bytes. -/
theorem parse_frame_iff (hex : Str) (f : Frame) :
    parseFrame hex = .ok f ↔
      (∃ ds : List Nat, hex.map Sha256.Spec.hexVal = ds.map some ∧ ds.length = 28 ∧
        Spec.number f.bytes = Spec.hexNumber ds) ∧
      Spec.G ∣ Spec.msg f.bytes ∧
      (Spec.frameField f 1 5 = 17 ∨ Spec.frameField f 1 5 = 18) := by
  unfold parseFrame
  constructor
  · intro h
    split at h
    · simp at h
    · rename_i hl
      push Not at hl
      split at h
      · simp at h
      · rename_i bytes hb
        split at h
        · rename_i hsz
          split at h
          · simp at h
          · rename_i hc
            push Not at hc
            dsimp only at h
            split at h
            · simp at h
            · rename_i hdf
              simp only [Res.ok.injEq] at h
              subst h
              obtain ⟨ds, h1, h2, h3⟩ := (hexBytes_spec _ _).mp hb
              rw [utf8_hex] at h1
              have hlen : ds.length = 28 := by
                have e1 := (utf8_hex hex ds).mpr h1
                have := congrArg List.length e1
                rw [List.length_map, List.length_map, blen_utf8, hl] at this
                exact this.symm
              refine ⟨⟨ds, h1, hlen, h3⟩, (crc24_zero_iff _).mp hc, ?_⟩
              rw [← downlinkFormat_eq]
              unfold Frame.downlinkFormat
              omega
        · simp at h
  · rintro ⟨⟨ds, h1, h2, h3⟩, hG, hdf⟩
    have h1' := (utf8_hex hex ds).mpr h1
    have hlen : (utf8 hex).length = 28 := by
      have := congrArg List.length h1'
      rw [List.length_map, List.length_map] at this; omega
    rw [blen_utf8] at hlen
    rw [if_neg (by simp [hlen])]
    have hb : hexBytes (utf8 hex) = some f.bytes := by
      rw [hexBytes_spec]
      refine ⟨ds, h1', ?_, h3⟩
      rw [blen_utf8, hlen, f.size]
    rw [hb]
    simp only
    rw [dif_pos f.size, if_neg (by simpa using (crc24_zero_iff _).mpr hG)]
    rw [← downlinkFormat_eq] at hdf
    unfold Frame.downlinkFormat at hdf
    rw [if_neg]
    change ¬ ((f.at 0).toNat >>> 3 ≠ 17 ∧ (f.at 0).toNat >>> 3 ≠ 18)
    omega

/-- `parse_frame` never panics. -/
theorem parse_frame_total (hex : Str) : parseFrame hex ≠ .panic := by
  unfold parseFrame
  split
  · simp
  · rename_i hl
    push Not at hl
    split
    · simp
    · rename_i bytes hb
      obtain ⟨ds, _, h2, _⟩ := (hexBytes_spec _ _).mp hb
      rw [blen_utf8, hl] at h2
      rw [dif_pos (by omega)]
      split
      · simp
      · dsimp only; split <;> simp

/-- The accessors are the standard's bit fields: DF bits 1-5, address bits 9-32, type code bits 1-5 of
the payload. -/
theorem frame_accessors (f : Frame) :
    f.downlinkFormat = Spec.frameField f 1 5 ∧ f.icao24 = Spec.frameField f 9 24 ∧
    f.typeCode = Spec.meField f 1 5 ∧
    f.me 0 * 2 ^ 48 + f.me 1 * 2 ^ 40 + f.me 2 * 2 ^ 32 + f.me 3 * 2 ^ 24 + f.me 4 * 2 ^ 16
      + f.me 5 * 2 ^ 8 + f.me 6 = Spec.frameField f 33 56 :=
  ⟨downlinkFormat_eq f, icao24_eq f, typeCode_eq f, (meNumber_eq f).symm⟩

/-- Two accepted texts never denote different frames that differ only within 24 consecutive bits:
corrupting up to six adjacent digits of an accepted text gives a rejected one. -/
theorem corrupted_text_rejected (a b : Frame) (hex hex' : Str) (ha : parseFrame hex = .ok a)
    (hdiff : ∃ s, (∀ i ∈ Spec.errors a.bytes b.bytes, s ≤ i ∧ i < s + 24)) (hne : a ≠ b) :
    parseFrame hex' ≠ .ok b := by
  intro hb
  obtain ⟨s, hs⟩ := hdiff
  have h1 := (crc24_zero_iff _).mpr ((parse_frame_iff hex a).mp ha).2.1
  have h2 := (crc24_zero_iff _).mpr ((parse_frame_iff hex' b).mp hb).2.1
  exact burst_detected a.bytes b.bytes (by rw [a.size, b.size]) (fun h => hne (frame_ext h)) s hs h1 h2

def sampleFrame : Frame := ⟨sampleBytes, by decide⟩

example : parseFrame "8D40621D58C382D690C8AC2863A7".toList = .ok sampleFrame := by decide +kernel
example : parseFrame "8d40621d58c382d690c8ac2863a7".toList = .ok sampleFrame := by decide +kernel
example : sampleFrame.icao24 = 0x40621D := by decide +kernel

/-! ### C11 callsigns -/

/-- `decode_identification` succeeds exactly when the type code is 1-4 and all eight six-bit fields
are letters, digits or blanks; it returns those eight characters in order without trailing blanks. -/
theorem identification_iff (f : Frame) (m : Identification) :
    decodeIdentification f = .ok m ↔
      (1 ≤ Spec.meField f 1 5 ∧ Spec.meField f 1 5 ≤ 4) ∧ m.category = Spec.meField f 6 3 ∧
      ∃ t : Str, t.length = 8 ∧ (∀ i, i < 8 → Spec.sixBit (Spec.meField f (9 + 6 * i) 6) = t[i]?) ∧
        Spec.StripBlanks t m.callsign := by
  have hr : (List.range 8).map (fun i => Spec.sixBit ((callsignBits f >>> (42 - i * 6)) &&& 0x3F)) =
      (List.range 8).map (fun i => Spec.sixBit (Spec.meField f (9 + 6 * i) 6)) := by
    apply List.map_congr_left
    intro i hi
    rw [charIndex_eq f i (by simpa using hi)]
  have hmap : ∀ t : Str, (List.range 8).map (fun i => Spec.sixBit (Spec.meField f (9 + 6 * i) 6)) = t.map some ↔
      t.length = 8 ∧ ∀ i, i < 8 → Spec.sixBit (Spec.meField f (9 + 6 * i) 6) = t[i]? := by
    intro t
    constructor
    · intro h
      have hl : t.length = 8 := by have := congrArg List.length h; simpa using this.symm
      refine ⟨hl, fun i hi => ?_⟩
      have := congrArg (fun l => l[i]?) h
      simp only [List.getElem?_map, List.getElem?_range hi, Option.map_some] at this
      rw [List.getElem?_eq_getElem (by omega), Option.map_some] at this
      rw [List.getElem?_eq_getElem (by omega)]
      exact Option.some.inj this
    · rintro ⟨hl, h⟩
      apply List.ext_getElem?
      intro i
      by_cases hi : i < 8
      · simp only [List.getElem?_map, List.getElem?_range hi, Option.map_some]
        rw [h i hi, List.getElem?_eq_getElem (by omega), Option.map_some]
      · rw [List.getElem?_eq_none (by simpa using hi), List.getElem?_eq_none (by simp; omega)]
  unfold decodeIdentification
  simp only
  rw [typeCode_eq]
  by_cases htc : 1 ≤ Spec.meField f 1 5 ∧ Spec.meField f 1 5 ≤ 4
  · rw [if_neg (by simpa using htc)]
    simp only [htc, true_and, and_self]
    constructor
    · intro h
      cases hl : callsignLoop (callsignBits f) (List.range 8) [] with
      | ok s =>
        rw [hl] at h
        simp only [Res.bind_ok, Res.ok.injEq] at h
        subst h
        obtain ⟨t, ht, hst⟩ := (callsignLoop_ok _ _ _ _).mp hl
        rw [List.nil_append] at hst
        subst hst
        rw [hr] at ht
        obtain ⟨h1, h2⟩ := (hmap _).mp ht
        exact ⟨subType_eq f, _, h1, h2, (dropWhile_blank _ _).mp rfl⟩
      | err e => rw [hl] at h; simp at h
      | panic => rw [hl] at h; simp at h
    · rintro ⟨hcat, t, h1, h2, h3⟩
      have : callsignLoop (callsignBits f) (List.range 8) [] = .ok t :=
        (callsignLoop_ok _ _ _ _).mpr ⟨t, by rw [hr]; exact (hmap t).mpr ⟨h1, h2⟩, by simp⟩
      rw [this]
      simp only [Res.bind_ok, Res.ok.injEq]
      obtain ⟨c, s⟩ := m
      simp only at hcat h3 ⊢
      rw [(dropWhile_blank t s).mpr h3, hcat, subType_eq]
  · rw [if_pos htc]
    simp [htc]

/-- No payload makes the callsign decoder panic. -/
theorem identification_total (f : Frame) : decodeIdentification f ≠ .panic := by
  unfold decodeIdentification
  simp only
  split
  · simp
  · cases h : callsignLoop (callsignBits f) (List.range 8) [] with
    | ok s => simp
    | err e => simp
    | panic => exact absurd h (callsignLoop_no_panic _ _ _)

/-- Encoding a callsign and decoding it: if the eight six-bit fields hold the codes of the callsign
padded with blanks, the decoder returns the callsign. -/
theorem callsign_round_trip (f : Frame) (s : Str) (hlen : s.length ≤ 8) (hblank : s.getLast? ≠ some ' ')
    (htc : 1 ≤ Spec.meField f 1 5 ∧ Spec.meField f 1 5 ≤ 4)
    (henc : ∀ i, i < 8 → Spec.sixBit (Spec.meField f (9 + 6 * i) 6) = some (s.getD i ' ')) :
    decodeIdentification f = .ok ⟨Spec.meField f 6 3, s⟩ := by
  rw [identification_iff]
  refine ⟨htc, rfl, s ++ List.replicate (8 - s.length) ' ', by simp; omega, ?_, 8 - s.length, rfl, hblank⟩
  intro i hi
  rw [henc i hi]
  by_cases h : i < s.length
  · rw [List.getElem?_append_left h, List.getD_eq_getElem _ _ h, List.getElem?_eq_getElem h]
  · rw [List.getElem?_append_right (by omega), List.getElem?_replicate, if_pos (by omega),
      List.getD_eq_default _ _ (by omega)]

/-- The alphabet is injective, so the encoding of a callsign is unique. -/
theorem sixBit_injective : ∀ a b : Fin 64, Spec.sixBit a = Spec.sixBit b → Spec.sixBit a ≠ none → a = b := by
  decide +kernel

/-- Sun (2021) §4.1 identification frame. -/
def identFrame : Frame :=
  ⟨[0x8D, 0x48, 0x40, 0xD6, 0x20, 0x2C, 0xC3, 0x71, 0xC3, 0x2C, 0xE0, 0x57, 0x60, 0x98], by decide⟩

example : decodeIdentification identFrame = .ok ⟨0, "KLM1023".toList⟩ := by decide +kernel

/-! ### C12 altitude -/

/-- Every 16-bit argument whose low 12 bits are the code: with the Q bit set the altitude is
`25 N - 1000` feet (0.3048 m each); without it, or for code 0, there is none. -/
theorem altitude_decode (code : BitVec 16) :
    decodeAltitude code =
      if code.toNat / 16 % 2 = 1 then some ((Spec.altitudeFeet code.toNat : ℚ) * (3048 / 10000)) else none := by
  unfold decodeAltitude Spec.altitudeFeet
  have hlt := code.isLt
  by_cases h0 : code = 0#16
  · subst h0; rfl
  · rw [if_neg h0]
    simp only [Nat.shiftRight_eq_div_pow, and1]
    norm_num only
    split
    · congr 2
      rw [and15, or_shift _ _ _ (by omega)]
      push_cast; ring
    · rfl

/-- Encoding: every altitude `25 N - 1000` ft with `N < 2048` has the 12-bit code
`32 (N / 16) + 16 + N mod 16`, which decodes to it. -/
theorem altitude_round_trip (n : Nat) (h : n < 2048) :
    decodeAltitude (BitVec.ofNat 16 (n / 16 * 32 + 16 + n % 16)) =
      some ((25 * (n : ℚ) - 1000) * (3048 / 10000)) := by
  have hc : (BitVec.ofNat 16 (n / 16 * 32 + 16 + n % 16)).toNat = n / 16 * 32 + 16 + n % 16 := by
    rw [BitVec.toNat_ofNat]; apply Nat.mod_eq_of_lt; omega
  rw [altitude_decode, hc, if_pos (by omega)]
  unfold Spec.altitudeFeet
  congr 2
  have : (n / 16 * 32 + 16 + n % 16) / 32 * 16 + (n / 16 * 32 + 16 + n % 16) % 16 = n := by omega
  rw [this]
  push_cast; ring

/-- Different codes with the Q bit never give the same altitude. -/
theorem altitude_injective (a b : BitVec 16) (ha : a.toNat < 4096) (hb : b.toNat < 4096)
    (h : decodeAltitude a = decodeAltitude b) (hs : decodeAltitude a ≠ none) : a = b := by
  rw [altitude_decode] at h hs
  rw [altitude_decode] at h
  split at h
  · rename_i ha1
    split at h
    · rename_i hb1
      simp only [Option.some.injEq] at h
      have h2 : (Spec.altitudeFeet a.toNat : ℚ) = Spec.altitudeFeet b.toNat := by linarith
      have h3 : Spec.altitudeFeet a.toNat = Spec.altitudeFeet b.toNat := by exact_mod_cast h2
      unfold Spec.altitudeFeet at h3
      apply BitVec.eq_of_toNat_eq
      omega
    · simp at h
  · rename_i hn; rw [if_neg hn] at hs; simp at hs

/-- The position payload fields are the standard's: altitude bits 9-20, parity bit 22, CPR latitude
bits 23-39, longitude bits 40-56. -/
theorem position_fields (f : Frame) (p : Position) :
    decodePosition f = .ok p ↔ (9 ≤ Spec.meField f 1 5 ∧ Spec.meField f 1 5 ≤ 18) ∧
      p.surveillanceStatus = Spec.meField f 6 2 ∧
      (p.singleAntenna = true ↔ Spec.meField f 8 1 = 1) ∧
      p.encodedAltitude = Spec.meField f 9 12 ∧
      (p.cprOdd = true ↔ Spec.meField f 22 1 = 1) ∧
      p.cprLat = Spec.meField f 23 17 ∧ p.cprLon = Spec.meField f 40 17 := by
  have h0 := me_lt f 0; have h1 := me_lt f 1; have h2 := me_lt f 2; have h3 := me_lt f 3
  have h4 := me_lt f 4; have h5 := me_lt f 5; have h6 := me_lt f 6
  have hn := meNumber_eq f
  have e1 : (f.me 0 >>> 1) &&& 3 = Spec.meField f 6 2 := by
    simp only [Spec.meField, Spec.field, hn, Nat.shiftRight_eq_div_pow, and3]; omega
  have e2 : ((f.me 0 &&& 1) != 0) = true ↔ Spec.meField f 8 1 = 1 := by
    simp only [Spec.meField, Spec.field, hn, and1, bne_iff_ne, ne_eq]; omega
  have e3 : (f.me 1 <<< 4) ||| (f.me 2 >>> 4) = Spec.meField f 9 12 := by
    rw [or_shift _ _ _ (by rw [Nat.shiftRight_eq_div_pow]; omega)]
    simp only [Spec.meField, Spec.field, hn, Nat.shiftRight_eq_div_pow]; omega
  have e4 : ((f.me 2 &&& 4) != 0) = true ↔ Spec.meField f 22 1 = 1 := by
    rw [bne_iff_ne, and4_ne _ h2]
    simp only [Spec.meField, Spec.field, hn]; omega
  have e5 : ((f.me 2 &&& 3) <<< 15) ||| (f.me 3 <<< 7) ||| (f.me 4 >>> 1) = Spec.meField f 23 17 := by
    have e : ((f.me 2 &&& 3) <<< 15) ||| (f.me 3 <<< 7) = ((f.me 2 &&& 3) * 2 ^ 8 + f.me 3) <<< 7 := by
      rw [or_shift _ _ _ (by rw [Nat.shiftLeft_eq]; omega)]; simp only [Nat.shiftLeft_eq]; omega
    rw [e, or_shift _ _ _ (by rw [Nat.shiftRight_eq_div_pow]; omega)]
    simp only [Spec.meField, Spec.field, hn, Nat.shiftRight_eq_div_pow, and3]; omega
  have e6 : ((f.me 4 &&& 1) <<< 16) ||| (f.me 5 <<< 8) ||| f.me 6 = Spec.meField f 40 17 := by
    have e : ((f.me 4 &&& 1) <<< 16) ||| (f.me 5 <<< 8) = ((f.me 4 &&& 1) * 2 ^ 8 + f.me 5) <<< 8 := by
      rw [or_shift _ _ _ (by rw [Nat.shiftLeft_eq]; omega)]; simp only [Nat.shiftLeft_eq]; omega
    rw [e, or_shift _ _ _ (by omega)]
    simp only [Spec.meField, Spec.field, hn, and1]; omega
  unfold decodePosition
  simp only [typeCode_eq]
  by_cases htc : 9 ≤ Spec.meField f 1 5 ∧ Spec.meField f 1 5 ≤ 18
  · rw [if_neg (by simpa using htc)]
    simp only [Res.ok.injEq]
    constructor
    · rintro rfl
      exact ⟨htc, e1, e2, e3, e4, e5, e6⟩
    · rintro ⟨_, k1, k2, k3, k4, k5, k6⟩
      obtain ⟨p1, p2, p3, p4, p5, p6⟩ := p
      simp only at k1 k2 k3 k4 k5 k6
      rw [e1, e3, e5, e6]
      congr 1
      · exact k1.symm
      · rw [Bool.eq_iff_iff, e2, k2]
      · exact k3.symm
      · rw [Bool.eq_iff_iff, e4, k4]
      · exact k5.symm
      · exact k6.symm
  · rw [if_pos htc]
    simp [htc]

example : decodePosition sampleFrame = .ok ⟨0, false, 3128, false, 93000, 51372⟩ := by decide +kernel

/-! ### C13 velocity -/

/-- Metres per second per knot used by the code (mod.rs:391). -/
noncomputable def knot : ℝ := 0.514444

/-- East component (m/s) of a velocity payload: direction bit 14, raw bits 15-24, factor 4 for the
supersonic subtype. -/
noncomputable def eastMps (f : Frame) : ℝ :=
  Spec.knots (Spec.meField f 14 1) (Spec.meField f 15 10) (if Spec.meField f 6 3 = 2 then 4 else 1) * knot

/-- North component: direction bit 25, raw bits 26-35. -/
noncomputable def northMps (f : Frame) : ℝ :=
  Spec.knots (Spec.meField f 25 1) (Spec.meField f 26 10) (if Spec.meField f 6 3 = 2 then 4 else 1) * knot

/-- Vertical rate (ft/min): sign bit 37, raw bits 38-46. -/
noncomputable def climbFpm (f : Frame) : ℝ :=
  (if Spec.meField f 37 1 = 1 then -1 else 1) * (64 * ((Spec.meField f 38 9 : ℝ) - 1))

theorem polar (e n : ℝ) (h : ¬ (e = 0 ∧ n = 0)) :
    let θ := remEuclid (atan2 e n * (180 / Real.pi)) 360
    0 ≤ θ ∧ θ < 360 ∧ Real.sqrt (e * e + n * n) * Real.sin (θ * (Real.pi / 180)) = e ∧
      Real.sqrt (e * e + n * n) * Real.cos (θ * (Real.pi / 180)) = n := by
  have hp := Real.pi_pos
  intro θ
  set a := atan2 e n with ha
  have hz : (⟨n, e⟩ : ℂ) ≠ 0 := by
    intro h0
    apply h
    exact ⟨congrArg Complex.im h0, congrArg Complex.re h0⟩
  have hnorm : ‖(⟨n, e⟩ : ℂ)‖ = Real.sqrt (e * e + n * n) := by
    rw [Complex.norm_def, Complex.normSq_mk]; ring_nf
  have hs : Real.sqrt (e * e + n * n) * Real.sin a = e := by
    rw [← hnorm]; exact Complex.norm_mul_sin_arg ⟨n, e⟩
  have hc : Real.sqrt (e * e + n * n) * Real.cos a = n := by
    rw [← hnorm]; exact Complex.norm_mul_cos_arg ⟨n, e⟩
  have hθ : θ * (Real.pi / 180) = a - (⌊a * (180 / Real.pi) / 360⌋ : ℤ) * (2 * Real.pi) := by
    change (a * (180 / Real.pi) - 360 * (⌊a * (180 / Real.pi) / 360⌋ : ℤ)) * (Real.pi / 180) = _
    field_simp
    ring
  refine ⟨?_, ?_, ?_, ?_⟩
  · have := Int.floor_le (a * (180 / Real.pi) / 360)
    change 0 ≤ a * (180 / Real.pi) - 360 * (⌊a * (180 / Real.pi) / 360⌋ : ℤ)
    linarith
  · have := Int.lt_floor_add_one (a * (180 / Real.pi) / 360)
    change a * (180 / Real.pi) - 360 * (⌊a * (180 / Real.pi) / 360⌋ : ℤ) < 360
    linarith
  · rw [hθ, Real.sin_sub_int_mul_two_pi]; exact hs
  · rw [hθ, Real.cos_sub_int_mul_two_pi]; exact hc

theorem velocity_raw (f : Frame) (htc : Spec.meField f 1 5 = 19)
    (hst : Spec.meField f 6 3 = 1 ∨ Spec.meField f 6 3 = 2) :
    decodeVelocity f = .ok ⟨
      if Spec.meField f 15 10 = 1 ∧ Spec.meField f 26 10 = 1 then none
        else some (remEuclid (atan2 (eastMps f) (northMps f) * (180 / Real.pi)) 360),
      some (Real.sqrt (eastMps f * eastMps f + northMps f * northMps f)),
      some (climbFpm f * 0.00508)⟩ := by
  have h0 := me_lt f 0; have h1 := me_lt f 1; have h2 := me_lt f 2; have h3 := me_lt f 3
  have h4 := me_lt f 4; have h5 := me_lt f 5; have h6 := me_lt f 6
  have hn := meNumber_eq f
  have e1 : (f.me 1 &&& 4 ≠ 0) ↔ Spec.meField f 14 1 = 1 := by
    rw [and4_ne _ h1]; simp only [Spec.meField, Spec.field, hn]; omega
  have e2 : (f.me 1 &&& 3) <<< 8 ||| f.me 2 = Spec.meField f 15 10 := by
    rw [or_shift _ _ _ (by omega), and3]; simp only [Spec.meField, Spec.field, hn]; omega
  have e3 : (f.me 3 &&& 128 ≠ 0) ↔ Spec.meField f 25 1 = 1 := by
    rw [and128_ne _ h3]; simp only [Spec.meField, Spec.field, hn]; omega
  have e4 : (f.me 3 &&& 127) <<< 3 ||| f.me 4 >>> 5 = Spec.meField f 26 10 := by
    rw [or_shift _ _ _ (by rw [Nat.shiftRight_eq_div_pow]; omega), and127]
    simp only [Spec.meField, Spec.field, hn, Nat.shiftRight_eq_div_pow]; omega
  have e5 : (f.me 4 &&& 8 ≠ 0) ↔ Spec.meField f 37 1 = 1 := by
    rw [and8_ne _ h4]; simp only [Spec.meField, Spec.field, hn]; omega
  have e6 : (f.me 4 &&& 7) <<< 6 ||| f.me 5 >>> 2 = Spec.meField f 38 9 := by
    rw [or_shift _ _ _ (by rw [Nat.shiftRight_eq_div_pow]; omega), and7]
    simp only [Spec.meField, Spec.field, hn, Nat.shiftRight_eq_div_pow]; omega
  unfold decodeVelocity
  simp only [typeCode_eq, subType_eq]
  rw [if_neg (by simpa using htc), if_pos hst]
  simp only [e1, e2, e3, e4, e5, e6]
  have q1 : (((Spec.meField f 15 10 : ℕ) : ℝ) - 1 = 0) ↔ Spec.meField f 15 10 = 1 := by
    rw [sub_eq_zero]; exact Nat.cast_eq_one
  have q2 : (((Spec.meField f 26 10 : ℕ) : ℝ) - 1 = 0) ↔ Spec.meField f 26 10 = 1 := by
    rw [sub_eq_zero]; exact Nat.cast_eq_one
  simp only [q1, q2]
  have g1 : eastMps f = (if Spec.meField f 14 1 = 1 then -1 else 1) * ((Spec.meField f 15 10 : ℝ) - 1) *
      (if Spec.meField f 6 3 = 2 then 4 else 1) * 0.514444 := by
    unfold eastMps Spec.knots knot; push_cast; rfl
  have g2 : northMps f = (if Spec.meField f 25 1 = 1 then -1 else 1) * ((Spec.meField f 26 10 : ℝ) - 1) *
      (if Spec.meField f 6 3 = 2 then 4 else 1) * 0.514444 := by
    unfold northMps Spec.knots knot; push_cast; rfl
  rw [← g1, ← g2]
  congr 3
  unfold climbFpm
  ring

/-- A velocity payload with all three subfields present (raw at least 1): ground speed and heading are
the polar form of the signed east and north components, the heading is in `[0, 360)` and absent
exactly when both components are zero, and the vertical rate is `±64 (raw - 1)` ft/min.
Partial: the case of raw 0 ("no information") is excluded, see the next two theorems. -/
theorem velocity_decode_partial (f : Frame) (htc : Spec.meField f 1 5 = 19)
    (hst : Spec.meField f 6 3 = 1 ∨ Spec.meField f 6 3 = 2)
    (_hew : 1 ≤ Spec.meField f 15 10) (_hns : 1 ≤ Spec.meField f 26 10) (_hvr : 1 ≤ Spec.meField f 38 9) :
    ∃ v gs, decodeVelocity f = .ok v ∧ v.groundSpeed = some gs ∧ 0 ≤ gs ∧
      gs ^ 2 = eastMps f ^ 2 + northMps f ^ 2 ∧
      (v.heading = none ↔ eastMps f = 0 ∧ northMps f = 0) ∧
      (∀ θ, v.heading = some θ → 0 ≤ θ ∧ θ < 360 ∧ gs * Real.sin (θ * (Real.pi / 180)) = eastMps f ∧
        gs * Real.cos (θ * (Real.pi / 180)) = northMps f) ∧
      v.verticalRate = some (climbFpm f * 0.00508) := by
  have k0 : ∀ dir raw s : ℕ, 0 < s → (Spec.knots dir raw s * knot = 0 ↔ raw = 1) := by
    intro dir raw s hs
    unfold Spec.knots knot
    have hs' : (s : ℝ) ≠ 0 := by positivity
    have hd : (if dir = 1 then (-1 : ℝ) else 1) ≠ 0 := by split <;> norm_num
    have h5 : (0.514444 : ℝ) ≠ 0 := by norm_num
    constructor
    · intro h
      have h1 := (mul_eq_zero.mp h).resolve_right h5
      have h2 := (mul_eq_zero.mp h1).resolve_right hs'
      have h3 := (mul_eq_zero.mp h2).resolve_left hd
      rw [sub_eq_zero] at h3
      exact_mod_cast h3
    · rintro rfl; simp
  have hs : 0 < (if Spec.meField f 6 3 = 2 then 4 else 1) := by split <;> norm_num
  have hE : eastMps f = 0 ↔ Spec.meField f 15 10 = 1 := k0 _ _ _ hs
  have hN : northMps f = 0 ↔ Spec.meField f 26 10 = 1 := k0 _ _ _ hs
  refine ⟨_, _, velocity_raw f htc hst, rfl, Real.sqrt_nonneg _, ?_, ?_, ?_, rfl⟩
  · rw [Real.sq_sqrt (by nlinarith [mul_self_nonneg (eastMps f), mul_self_nonneg (northMps f)])]; ring
  · rw [hE, hN]
    simp only
    split <;> simp_all
  · intro θ hθ
    simp only at hθ
    split at hθ
    · simp at hθ
    · rename_i hne
      simp only [Option.some.injEq] at hθ
      subst hθ
      exact polar _ _ (by rw [hE, hN]; exact hne)

/-- Other type codes and subtypes are refused. -/
theorem velocity_rejects (f : Frame) :
    (∃ v, decodeVelocity f = .ok v) ↔
      Spec.meField f 1 5 = 19 ∧ (Spec.meField f 6 3 = 1 ∨ Spec.meField f 6 3 = 2) := by
  constructor
  · rintro ⟨v, h⟩
    unfold decodeVelocity at h
    simp only [typeCode_eq, subType_eq] at h
    split at h
    · simp at h
    · rename_i h1
      split at h
      · rename_i h2; exact ⟨by simpa using h1, h2⟩
      · simp at h
  · rintro ⟨h1, h2⟩; exact ⟨_, velocity_raw f h1 h2⟩

/-- Disagreement with the claim: a payload without any velocity information (all raw fields 0) is
decoded to numbers. -/
def emptyVelocity : Frame :=
  ⟨[0x8D, 0x40, 0x62, 0x1D, 0x99, 0, 0, 0, 0, 0, 0, 0xEC, 0xBE, 0x13], by decide⟩

theorem velocity_no_information_decoded :
    parseFrame "8D40621D99000000000000ECBE13".toList = .ok emptyVelocity ∧
    Spec.meField emptyVelocity 15 10 = 0 ∧ Spec.meField emptyVelocity 26 10 = 0 ∧
    Spec.meField emptyVelocity 38 9 = 0 ∧
    ∃ v, decodeVelocity emptyVelocity = .ok v ∧ v.groundSpeed ≠ none ∧ v.heading ≠ none ∧
      v.verticalRate = some (-64 * 0.00508) := by
  have a1 : Spec.meField emptyVelocity 15 10 = 0 := by decide +kernel
  have a2 : Spec.meField emptyVelocity 26 10 = 0 := by decide +kernel
  have a3 : Spec.meField emptyVelocity 38 9 = 0 := by decide +kernel
  have a4 : Spec.meField emptyVelocity 37 1 = 0 := by decide +kernel
  refine ⟨by decide +kernel, a1, a2, a3, _, velocity_raw _ (by decide +kernel) (by left; decide +kernel), by simp, by simp [a1], ?_⟩
  simp only [climbFpm, a3, a4]
  norm_num

/-! ### C14 local CPR decoding -/

/-- Decoding an encoded position with a reference less than half a zone away in both coordinates
(longitude up to whole turns) returns exactly the quantised latitude and, up to a turn, the quantised
longitude, for both parities and every position.
Partial: the quantised latitude must not be exactly ±87 (see `local_wrong_at_87`). -/
theorem local_recovers_partial (odd : Bool) (lat lon refLat refLon : ℝ) (h1 : -90 ≤ lat) (h2 : lat ≤ 90)
    (h87 : |Spec.Rlat odd lat| ≠ 87) (hlat : |refLat - Spec.Rlat odd lat| < Spec.Dlat odd / 2)
    (hlon : ∃ k : ℤ, |refLon + 360 * k - Spec.Rlon odd lat lon| < Spec.Dlon odd lat / 2) :
    (decodeLocally (Spec.txLat odd lat) (Spec.txLon odd lat lon) odd refLat refLon).1 = Spec.Rlat odd lat ∧
    Spec.SameLon (decodeLocally (Spec.txLat odd lat) (Spec.txLon odd lat lon) odd refLat refLon).2
      (Spec.Rlon odd lat lon) :=
  local_recovers' odd lat lon refLat refLon h1 h2 h87 hlat hlon

/-- The quantised position is within `zone / 2^18` of the true one. -/
theorem quantisation (odd : Bool) (lat lon : ℝ) :
    |Spec.Rlat odd lat - lat| ≤ Spec.Dlat odd / 2 ^ 18 ∧
    |Spec.Rlon odd lat lon - lon| ≤ Spec.Dlon odd lat / 2 ^ 18 :=
  ⟨R_close _ _ (Dlat_pos odd), R_close _ _ (Dlon_pos odd lat)⟩

/-- The hypotheses are met, for instance, by an aircraft at 52.257° N, 3.919° E and a receiver 1° north
of it at the same longitude. -/
example (odd : Bool) :
    (decodeLocally (Spec.txLat odd 52.257) (Spec.txLon odd 52.257 3.919) odd 53.257 3.919).1 =
      Spec.Rlat odd 52.257 := by
  have hq := quantisation odd 52.257 3.919
  have hd := Dlat_le odd
  have hd6 : (6 : ℝ) ≤ Spec.Dlat odd := by unfold Spec.Dlat Spec.parity; cases odd <;> norm_num
  have hs : Spec.Dlat odd / 2 ^ 18 < 1 / 100 := by rw [div_lt_iff₀ (by norm_num)]; linarith
  have h1 := abs_le.mp hq.1
  refine (local_recovers_partial odd 52.257 3.919 53.257 3.919 (by norm_num) (by norm_num) ?_ ?_ ⟨0, ?_⟩).1
  · intro h
    rw [abs_of_pos (by norm_num at h1 ⊢; linarith)] at h
    norm_num at h1; linarith
  · rw [abs_lt]; norm_num at h1 ⊢; constructor <;> linarith
  · have hp := Dlon_pos odd 52.257
    have := hq.2
    rw [abs_sub_comm] at this
    simp only [Int.cast_zero, mul_zero, add_zero]
    refine lt_of_le_of_lt this ?_
    apply div_lt_div_of_pos_left hp <;> norm_num

/-- For every pair of fields and every reference in `[-90, 90]`, the local result has the given CPR
latitude field, lies within half a zone of the reference in latitude, and (up to a whole turn, at most
one) within half of one of the code's longitude zones in longitude. -/
theorem local_nearest (y x : Nat) (odd : Bool) (refLat refLon : ℝ) (h2 : refLat ≤ 90) :
    let r := decodeLocally y x odd refLat refLon
    |r.1 - refLat| ≤ Spec.Dlat odd / 2 ∧
    (∃ z : ℤ, r.1 = Spec.Dlat odd * (z + (y : ℝ) / 131072)) ∧
    ∃ n : ℤ, 1 ≤ n ∧ n ≤ 59 ∧
      (∃ k : ℤ, (k = 0 ∨ k = 1) ∧ |r.2 + 360 * k - refLon| ≤ 360 / (n : ℝ) / 2) ∧
      ∃ m : ℤ, r.2 = 360 / (n : ℝ) * (m + (x : ℝ) / 131072) := by
  intro r
  have hD := Dlat_pos odd
  have hg := zone_floor_general (Spec.Dlat odd) refLat hD ((y : ℝ) / 131072)
  have hlt : Spec.Dlat odd * ((⌊refLat / Spec.Dlat odd - (y : ℝ) / 131072 + 0.5⌋ : ℤ) + (y : ℝ) / 131072) < 270 := by
    have := (abs_le.mp hg).2
    have := Dlat_le odd
    linarith
  have hr1 : r.1 = Spec.Dlat odd * ((⌊refLat / Spec.Dlat odd - (y : ℝ) / 131072 + 0.5⌋ : ℤ) + (y : ℝ) / 131072) := by
    change foldLat _ = _
    rw [dlat_eq]
    unfold foldLat
    rw [if_neg (by linarith)]
  refine ⟨by rw [hr1]; exact hg, ⟨_, hr1⟩, ?_⟩
  obtain ⟨n, hn, hn1, hn2⟩ := nl_int r.1
  obtain ⟨w, hw, hw1, hw2⟩ : ∃ w : ℤ, (if odd then max (nl r.1 - 1) 1 else max (nl r.1) 1) = (w : ℝ) ∧ 1 ≤ w ∧ w ≤ 59 := by
    cases odd
    · refine ⟨max n 1, ?_, le_max_right _ _, ?_⟩
      · simp [hn]
      · omega
    · refine ⟨max (n - 1) 1, ?_, le_max_right _ _, ?_⟩
      · simp [hn]
      · omega
  refine ⟨w, hw1, hw2, ?_⟩
  have hw' : (1 : ℝ) ≤ w := by exact_mod_cast hw1
  have hDl : 0 < 360 / (w : ℝ) := by positivity
  have hgl := zone_floor_general (360 / (w : ℝ)) refLon hDl ((x : ℝ) / 131072)
  have hr2 : r.2 = foldLon (360 / (w : ℝ) * ((⌊refLon / (360 / (w : ℝ)) - (x : ℝ) / 131072 + 0.5⌋ : ℤ) + (x : ℝ) / 131072)) := by
    rw [← hw]; rfl
  constructor
  · rw [hr2]
    unfold foldLon
    split
    · refine ⟨1, Or.inr rfl, ?_⟩
      convert hgl using 2; push_cast; ring
    · refine ⟨0, Or.inl rfl, ?_⟩
      convert hgl using 2; push_cast; ring
  · rw [hr2]
    unfold foldLon
    split
    · refine ⟨⌊refLon / (360 / (w : ℝ)) - (x : ℝ) / 131072 + 0.5⌋ - w, ?_⟩
      push_cast; field_simp; ring
    · exact ⟨_, rfl⟩

/-- The zone count of the code is the standard's at every latitude other than ±87. -/
theorem zone_count (lat : ℝ) (h : |lat| ≠ 87) : nl lat = (Spec.NL lat : ℝ) := nl_eq_NL h

/-- Disagreement: an aircraft at 87° N, 90° E (even message), reference exactly at the aircraft. The
decoded longitude is -180 because the code counts one longitude zone at 87° where there are two. -/
theorem local_wrong_at_87 :
    Spec.Rlat false 87 = 87 ∧ Spec.Rlon false 87 90 = 90 ∧
    decodeLocally (Spec.txLat false 87) (Spec.txLon false 87 90) false 87 90 = (87, -180) := by
  have hr : rnd (Spec.Dlat false) 87 = 1900544 := by
    unfold rnd Spec.Dlat Spec.parity
    rw [Int.floor_eq_iff]; norm_num
  have hR : Spec.Rlat false 87 = 87 := by
    unfold Spec.Rlat
    rw [R_eq _ _ (Dlat_pos false), hr]
    unfold Spec.Dlat Spec.parity; norm_num
  have hD : Spec.Dlon false 87 = 180 := by
    unfold Spec.Dlon Spec.lonZones
    rw [hR, nl_87.2]
    unfold Spec.parity; norm_num
  have hr2 : rnd (Spec.Dlon false 87) 90 = 65536 := by
    unfold rnd; rw [hD, Int.floor_eq_iff]; norm_num
  have hR2 : Spec.Rlon false 87 90 = 90 := by
    unfold Spec.Rlon
    rw [R_eq _ _ (Dlon_pos false 87), hr2, hD]; norm_num
  have ht : Spec.txLat false 87 = 65536 := by
    have := tx_eq (Spec.Dlat false) 87 (Dlat_pos false)
    rw [hr] at this
    unfold Spec.txLat
    omega
  have ht2 : Spec.txLon false 87 90 = 65536 := by
    have := tx_eq (Spec.Dlon false 87) 90 (Dlon_pos false 87)
    rw [hr2] at this
    unfold Spec.txLon
    omega
  refine ⟨hR, hR2, ?_⟩
  rw [ht, ht2]
  have hj : ⌊(87 : ℝ) / Spec.Dlat false - ((65536 : ℕ) : ℝ) / 131072 + 0.5⌋ = 14 := by
    unfold Spec.Dlat Spec.parity
    rw [Int.floor_eq_iff]; norm_num
  have hl : foldLat (Spec.Dlat false * (((14 : ℤ) : ℝ) + ((65536 : ℕ) : ℝ) / 131072)) = 87 := by
    unfold Spec.Dlat Spec.parity foldLat; norm_num
  have hm : ⌊(90 : ℝ) / (360 / max 1 1) - ((65536 : ℕ) : ℝ) / 131072 + 0.5⌋ = 0 := by
    rw [Int.floor_eq_iff]; norm_num
  unfold decodeLocally
  simp only [dlat_eq, hj, hl, nl_87.1, Bool.false_eq_true, if_false, hm]
  unfold foldLon
  norm_num

/-! ### C15 global CPR decoding -/

/-- An even and an odd message about the same position (any latitude in `[-90, 90]`, any longitude):
either the two quantised latitudes have different zone counts and the call fails with that error, or
the call returns exactly the quantised latitude of the later message and its longitude, in
`[-180, 180)` - except that with the odd message last and one zone the longitude is a NaN.
Partial: quantised latitudes of exactly ±87 are excluded. -/
theorem global_recovers_partial (lat lon : ℝ) (latest : Bool) (h1 : -90 ≤ lat) (h2 : lat ≤ 90)
    (h87 : |Spec.Rlat false lat| ≠ 87) (h87' : |Spec.Rlat true lat| ≠ 87) :
    let out := decodeGlobally (Spec.txLat false lat) (Spec.txLon false lat lon) (Spec.txLat true lat)
      (Spec.txLon true lat lon) latest
    (Spec.NL (Spec.Rlat false lat) ≠ Spec.NL (Spec.Rlat true lat) ∧ out = .err .nlMismatch) ∨
    (Spec.NL (Spec.Rlat false lat) = Spec.NL (Spec.Rlat true lat) ∧
      ((latest = true ∧ Spec.NL (Spec.Rlat true lat) = 1 ∧ out = .ok (Spec.Rlat true lat, none)) ∨
       (¬ (latest = true ∧ Spec.NL (Spec.Rlat true lat) = 1) ∧ ∃ L,
        out = .ok (Spec.Rlat latest lat, some L) ∧ Spec.SameLon L (Spec.Rlon latest lat lon) ∧
        -180 ≤ L ∧ L < 180))) :=
  global_decode lat lon latest h1 h2 h87 h87'

/-- With the even message last, or below the polar caps, the result is never a NaN, for any fields. -/
theorem global_number (y0 x0 y1 x1 : Nat) (latest : Bool) (p : ℝ × Option ℝ)
    (h : decodeGlobally y0 x0 y1 x1 latest = .ok p) (hn : latest = false ∨ nl p.1 ≠ 1) : p.2 ≠ none := by
  unfold decodeGlobally at h
  simp only at h
  split at h
  · simp at h
  · simp only [Res.ok.injEq] at h
    subst h
    cases latest
    · simp only [Bool.false_eq_true, if_false]
      unfold remEuclidNaN
      obtain ⟨n, hn1, hn2, _⟩ := nl_int (foldLat (dlat false * (remEuclid ((⌊59 * ((y0 : ℝ) / 131072) - 60 * ((y1 : ℝ) / 131072) + 0.5⌋ : ℤ) : ℝ) 60 + (y0 : ℝ) / 131072)))
      rw [hn1]
      have h0 : ¬ n = 0 := by omega
      simp [h0]
    · simp only [if_true, Bool.true_eq_false, false_or] at hn ⊢
      unfold remEuclidNaN
      simp [sub_eq_zero, hn]

/-- Disagreement: at 89° N with the odd message last the longitude is a NaN, for every longitude. -/
theorem global_nan_at_pole (lon : ℝ) :
    ∃ p, decodeGlobally (Spec.txLat false 89) (Spec.txLon false 89 lon) (Spec.txLat true 89)
      (Spec.txLon true 89 lon) true = .ok p ∧ p.2 = none := by
  have hb : ∀ odd, 88 < Spec.Rlat odd 89 := by
    intro odd
    have := R_close (Spec.Dlat odd) 89 (Dlat_pos odd)
    have hd := Dlat_le odd
    rw [abs_le] at this
    have h3 : Spec.Dlat odd / 2 ^ 18 < 1 := by rw [div_lt_iff₀ (by norm_num)]; linarith
    unfold Spec.Rlat; linarith
  have hn : ∀ odd, Spec.NL (Spec.Rlat odd 89) = 1 := by
    intro odd
    unfold Spec.NL
    rw [if_pos]
    have := hb odd
    rw [abs_of_pos (by linarith)]; linarith
  have h87 : ∀ odd, |Spec.Rlat odd 89| ≠ 87 := by
    intro odd h
    have := hb odd
    rw [abs_of_pos (by linarith)] at h; linarith
  have := global_decode 89 lon true (by norm_num) (by norm_num) (h87 false) (h87 true)
  rw [hn, hn] at this
  rcases this with ⟨h, _⟩ | ⟨_, ⟨_, _, h⟩ | ⟨h, _⟩⟩
  · exact absurd rfl h
  · exact ⟨_, h, rfl⟩
  · exact absurd ⟨rfl, rfl⟩ h

/-- Disagreement: fields that no position encodes are accepted and give latitude 180°. -/
theorem global_latitude_unchecked : ∃ L, decodeGlobally 0 0 65536 0 false = .ok (180, some L) :=
  global_out_of_range

end Verif.Adsb.Props
