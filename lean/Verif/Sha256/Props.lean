import Verif.Sha256.Lemmas

/-! Property theorems for `/repo/src/checksum.rs` (C01, C02). -/
namespace Verif.Sha256.Props
open Verif.Sha256

/-- C01. The digest computed for any message is its FIPS 180-4 SHA-256. The bound on the length is
the one FIPS puts on messages (fewer than 2^64 bits). -/
theorem sha256_is_fips (m : List (BitVec 8)) (_h : m.length < 2 ^ 61) :
    sha256 m = Spec.sha256 m := sha256_refines m

/-- Non-vacuity: a 56-byte message needs the second padding block. -/
example : (List.replicate 56 (0x61#8)).length < 2 ^ 61 ∧
    (Spec.pad (List.replicate 56 (0x61#8))).length = 128 :=
  ⟨by simp, by rw [pad_length, List.length_replicate]; rfl⟩

/-- C01. The padded message that is hashed is a whole number of blocks, so nothing is dropped, and
the digest always has 32 bytes. -/
theorem sha256_length_32 (m : List (BitVec 8)) :
    (sha256 m).length = 32 ∧ (Spec.pad m).length % 64 = 0 ∧
      (Spec.pad m).length < m.length + 9 + 64 := by
  refine ⟨sha256_length m, ?_, ?_⟩
  · rw [pad_length]; unfold Spec.zeros; omega
  · rw [pad_length]; unfold Spec.zeros; omega

/-- The text (as bytes) denotes the digest `d`: byte `i` is given by the two hexadecimal digits at
positions `2 i` and `2 i + 1`, in either case. -/
def Denotes (s d : List (BitVec 8)) : Prop :=
  s.length = 2 * d.length ∧ ∀ i, i < d.length → ∃ hi lo,
    Spec.hexVal (Char.ofNat (s.getD (2 * i) 0).toNat) = some hi ∧
    Spec.hexVal (Char.ofNat (s.getD (2 * i + 1) 0).toNat) = some lo ∧
    (d.getD i 0).toNat = 16 * hi + lo

/-- The value of a hexadecimal digit is below 16. -/
private theorem hexVal_lt (b : BitVec 8) (v : Nat) (h : Spec.hexVal (Char.ofNat b.toNat) = some v) :
    v < 16 := by
  have key : ∀ b : BitVec 8, ∀ w, w ∈ Spec.hexVal (Char.ofNat b.toNat) → w < 16 := by decide +kernel
  exact key b v h

private theorem nibbles_toNat (hi lo : Nat) (h1 : hi < 16) (h2 : lo < 16) :
    ((BitVec.ofNat 8 hi <<< 4) ||| BitVec.ofNat 8 lo : BitVec 8).toNat = 16 * hi + lo := by
  have key : ∀ a < 16, ∀ b < 16,
    ((BitVec.ofNat 8 a <<< 4) ||| BitVec.ofNat 8 b : BitVec 8).toNat = 16 * a + b := by decide +kernel
  exact key hi h1 lo h2

/-- C02. Decoding returns `d` exactly when the text is 64 hexadecimal digits denoting `d`, and
panics on every other text. -/
theorem hex32_iff (s d : List (BitVec 8)) :
    hex32 s = some d ↔ d.length = 32 ∧ Denotes s d := by
  by_cases hl : s.length = 64
  · by_cases hall : ∀ i, i < 32 → (hexNibble (s.getD (2 * i) 0)).isSome ∧
        (hexNibble (s.getD (2 * i + 1) 0)).isSome
    · have hloop := hex32_loop s 32 (by omega)
        (fun i => ((hexNibble (s.getD (2 * i) 0)).getD 0 <<< 4) ||| (hexNibble (s.getD (2 * i + 1) 0)).getD 0)
        (fun i hi => by
          obtain ⟨h1, h2⟩ := hall i hi
          obtain ⟨a, ha⟩ := Option.isSome_iff_exists.mp h1
          obtain ⟨b, hb⟩ := Option.isSome_iff_exists.mp h2
          exact ⟨a, b, ha, hb, by simp only [ha, hb, Option.getD_some]⟩)
      unfold hex32
      rw [if_neg (by omega), hloop]
      obtain ⟨g1, g2⟩ := foldl_set (fun i => ((hexNibble (s.getD (2 * i) 0)).getD 0 <<< 4) |||
        (hexNibble (s.getD (2 * i + 1) 0)).getD 0) (0 : Byte) (List.replicate 32 (0 : Byte)) 32 (by simp)
      generalize ((List.range 32).foldl _ _) = w at g1 g2
      have valEq : ∀ i, i < 32 → ∃ hi lo,
          Spec.hexVal (Char.ofNat (s.getD (2 * i) 0).toNat) = some hi ∧
          Spec.hexVal (Char.ofNat (s.getD (2 * i + 1) 0).toNat) = some lo ∧
          (w.getD i 0).toNat = 16 * hi + lo := by
        intro i hi
        obtain ⟨h1, h2⟩ := hall i hi
        have e1 := hexNibble_eq (s.getD (2 * i) 0)
        have e2 := hexNibble_eq (s.getD (2 * i + 1) 0)
        cases hv1 : Spec.hexVal (Char.ofNat (s.getD (2 * i) 0).toNat) with
        | none => rw [e1, hv1] at h1; simp at h1
        | some a =>
          cases hv2 : Spec.hexVal (Char.ofNat (s.getD (2 * i + 1) 0).toNat) with
          | none => rw [e2, hv2] at h2; simp at h2
          | some b =>
            refine ⟨a, b, rfl, rfl, ?_⟩
            rw [g2 i, if_pos hi, e1, e2, hv1, hv2]
            exact nibbles_toNat a b (hexVal_lt _ _ hv1) (hexVal_lt _ _ hv2)
      constructor
      · intro h
        simp only [Option.some.injEq] at h
        subst h
        refine ⟨by simpa using g1, ⟨by simp [g1, hl], fun i hi => valEq i (by simpa [g1] using hi)⟩⟩
      · rintro ⟨hd, hden⟩
        congr 1
        apply ext_getD (by simp [g1, hd])
        intro i hi
        have hi32 : i < 32 := by simpa [g1] using hi
        obtain ⟨a, b, ha, hb, hv⟩ := valEq i hi32
        obtain ⟨a', b', ha', hb', hv'⟩ := hden.2 i (by omega)
        rw [ha] at ha'; rw [hb] at hb'
        simp only [Option.some.injEq] at ha' hb'
        subst ha'; subst hb'
        exact BitVec.eq_of_toNat_eq (by rw [hv, hv'])
    · have : ∃ i, i < 32 ∧ (hexNibble (s.getD (2 * i) 0) = none ∨ hexNibble (s.getD (2 * i + 1) 0) = none) := by
        apply Classical.byContradiction
        intro hno
        apply hall
        intro i hi
        constructor
        · cases h : hexNibble (s.getD (2 * i) 0) with
          | none => exact absurd ⟨i, hi, Or.inl h⟩ hno
          | some v => rfl
        · cases h : hexNibble (s.getD (2 * i + 1) 0) with
          | none => exact absurd ⟨i, hi, Or.inr h⟩ hno
          | some v => rfl
      obtain ⟨i, hi, hbad⟩ := this
      have hnone : hex32 s = none := by
        unfold hex32
        rw [if_neg (by omega)]
        exact hex32_loop_none s 32 i hi hbad _
      rw [hnone]
      simp only [reduceCtorEq, false_iff, not_and]
      intro hd hden
      obtain ⟨a, b, ha, hb, _⟩ := hden.2 i (by omega)
      rcases hbad with h | h
      · rw [hexNibble_eq, ha] at h; simp at h
      · rw [hexNibble_eq, hb] at h; simp at h
  · unfold hex32
    rw [if_pos hl]
    simp only [reduceCtorEq, false_iff, not_and]
    intro hd hden
    exact hl (by rw [hden.1, hd])

/-- C02. Printing a digest and decoding the text gives the digest back. -/
theorem hex32_toHex (d : List (BitVec 8)) (h : d.length = 32) : hex32 (toHex d) = some d := by
  have hlen : (toHex d).length = 64 := by
    rw [toHex_eq_flatMap, List.length_flatMap]; simp [h, List.map_const']
  unfold hex32
  rw [if_neg (by omega)]
  have hg := hex32_loop (toHex d) 32 (by omega) (fun i => d.getD i 0) (fun i hi => by
    have := getD_flatMap_pair d (fun b : Byte => hexTable.getD (b >>> 4).toNat 0)
      (fun b : Byte => hexTable.getD (b &&& 0x0f).toNat 0) i (by omega)
    rw [toHex_eq_flatMap, this.1, this.2]
    refine ⟨_, _, hexNibble_table_hi _, hexNibble_table_lo _, ?_⟩
    generalize d.getD i 0 = b
    revert b; decide +kernel)
  rw [hg]
  refine congrArg some ?_
  obtain ⟨g1, g2⟩ := foldl_set (fun i => d.getD i 0) (0 : Byte) (List.replicate 32 (0 : Byte)) 32 (by simp)
  generalize ((List.range 32).foldl (fun w i => w.set i (d.getD i 0)) (List.replicate 32 (0 : Byte))) = w
    at g1 g2
  apply ext_getD (by simp only [g1]; simp [h])
  intro i hi
  rw [g2 i, if_pos (by simpa only [g1, List.length_replicate] using hi)]

example : (List.replicate 32 (0xA7#8)).length = 32 := by decide

/-- C02. The printed form consists of lower-case hexadecimal digits only. -/
theorem toHex_lowercase (d : List (BitVec 8)) (c : BitVec 8) (h : c ∈ toHex d) :
    (0x30 ≤ c ∧ c ≤ 0x39) ∨ (0x61 ≤ c ∧ c ≤ 0x66) := by
  rw [toHex_eq_flatMap] at h
  simp only [List.mem_flatMap] at h
  obtain ⟨b, _, hb⟩ := h
  revert hb
  have key : ∀ b : BitVec 8, ∀ c ∈ [hexTable.getD (b >>> 4).toNat 0, hexTable.getD (b &&& 0x0f).toNat 0],
      (0x30 ≤ c ∧ c ≤ 0x39) ∨ (0x61 ≤ c ∧ c ≤ 0x66) := by decide +kernel
  exact key b c

/-- C02. The integrity gate returns normally exactly when the expected text is 64 hexadecimal
digits denoting the FIPS digest of the data; otherwise it panics. -/
theorem gate_iff (data expected : List (BitVec 8)) (_h : data.length < 2 ^ 61) :
    assertSha256Eq data expected = some () ↔ Denotes expected (Spec.sha256 data) := by
  have hl := sha256_length data
  rw [← sha256_refines]
  unfold assertSha256Eq
  constructor
  · intro h
    cases he : hex32 expected with
    | none => rw [he] at h; simp at h
    | some e =>
      rw [he] at h
      simp only [Option.bind_eq_bind, Option.bind_some] at h
      rw [compareFrom_iff] at h
      obtain ⟨hel, hden⟩ := (hex32_iff expected e).mp he
      have : sha256 data = e := ext_getD (by omega) (fun i hi => h i (by omega) (by omega))
      rw [this]; exact hden
  · intro h
    have := (hex32_iff expected (sha256 data)).mpr ⟨hl, h⟩
    rw [this]
    simp only [Option.bind_eq_bind, Option.bind_some]
    rw [compareFrom_iff]
    intros; rfl

/-- Non-vacuity of `gate_iff`: the printed digest of the data passes, for every data. -/
example (data : List (BitVec 8)) (h : data.length < 2 ^ 61) :
    assertSha256Eq data (toHex (sha256 data)) = some () := by
  rw [gate_iff _ _ h, ← sha256_refines]
  exact ((hex32_iff _ _).mp (hex32_toHex _ (sha256_length data))).2

end Verif.Sha256.Props
