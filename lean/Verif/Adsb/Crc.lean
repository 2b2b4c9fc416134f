import Verif.Adsb.Model
import Mathlib.Algebra.Polynomial.Div
import Mathlib.Algebra.Polynomial.Monic
import Mathlib.Algebra.CharP.Two
import Mathlib.RingTheory.Polynomial.Basic
import Mathlib.Algebra.Field.ZMod
import Mathlib.Data.List.GetD

/-!
The parity register as arithmetic of polynomials over GF(2).
-/
namespace Verif.Adsb
open Polynomial

namespace Spec

/-- Mode S generator polynomial (ICAO Annex 10 vol. IV, 3.1.2.3.3): exponents as printed there. -/
noncomputable def G : (ZMod 2)[X] :=
  X ^ 24 + X ^ 23 + X ^ 22 + X ^ 21 + X ^ 20 + X ^ 19 + X ^ 18 + X ^ 17 + X ^ 16 + X ^ 15 + X ^ 14
    + X ^ 13 + X ^ 12 + X ^ 10 + X ^ 3 + 1

/-- A bit as a coefficient. -/
def bit (b : Bool) : ZMod 2 := if b then 1 else 0

/-- Bits of a byte string in transmission order (most significant first). -/
def bits (data : List Byte) : List Bool :=
  data.flatMap (fun b => [7, 6, 5, 4, 3, 2, 1, 0].map (fun i => b.getLsbD i))

/-- Polynomial of a bit string: the first transmitted bit is the highest coefficient. -/
noncomputable def poly (l : List Bool) : (ZMod 2)[X] :=
  ∑ j ∈ Finset.range l.length, C (bit (l.getD j false)) * X ^ (l.length - 1 - j)

/-- Message polynomial of a byte string. -/
noncomputable def msg (data : List Byte) : (ZMod 2)[X] := poly (bits data)

end Spec
open Spec

/-- Polynomial of the low 24 bits of a register. -/
noncomputable def regPoly (r : BitVec 32) : (ZMod 2)[X] :=
  ∑ i ∈ Finset.range 24, C (bit (r.getLsbD i)) * X ^ i

theorem bit_xor (a b : Bool) : bit (a ^^ b) = bit a + bit b := by
  cases a <;> cases b <;> decide

theorem coeff_regPoly (r : BitVec 32) (n : Nat) :
    (regPoly r).coeff n = if n < 24 then bit (r.getLsbD n) else 0 := by
  unfold regPoly
  rw [finset_sum_coeff]
  simp only [coeff_C_mul, coeff_X_pow, mul_ite, mul_one, mul_zero]
  rw [Finset.sum_ite_eq]
  simp

theorem coeff_poly (l : List Bool) (n : Nat) :
    (poly l).coeff n = if n < l.length then bit (l.getD (l.length - 1 - n) false) else 0 := by
  unfold poly
  rw [finset_sum_coeff]
  simp only [coeff_C_mul, coeff_X_pow, mul_ite, mul_one, mul_zero]
  split
  · rename_i h
    rw [Finset.sum_eq_single (l.length - 1 - n)]
    · rw [if_pos (by omega)]
    · intro j hj hne
      rw [if_neg]
      simp at hj; omega
    · intro h2; simp at h2; omega
  · rename_i h
    apply Finset.sum_eq_zero
    intro j hj
    rw [if_neg]
    simp at hj; omega

theorem poly_append (a b : List Bool) : poly (a ++ b) = X ^ b.length * poly a + poly b := by
  ext n
  rw [coeff_add, coeff_X_pow_mul', coeff_poly, coeff_poly, coeff_poly]
  simp only [List.length_append]
  by_cases h : n < b.length
  · rw [if_pos (by omega), if_neg (by omega), if_pos h, zero_add,
      List.getD_append_right _ _ _ _ (by omega)]
    congr 2; omega
  · rw [if_pos (show b.length ≤ n by omega), if_neg h, add_zero]
    by_cases h2 : n < a.length + b.length
    · rw [if_pos h2, if_pos (by omega), List.getD_append _ _ _ _ (by omega)]
      congr 2; omega
    · rw [if_neg h2, if_neg (by omega)]

theorem bits_append (a b : List Byte) : bits (a ++ b) = bits a ++ bits b := by
  simp [bits]

theorem bits_length (a : List Byte) : (bits a).length = 8 * a.length := by
  induction a with
  | nil => rfl
  | cons x xs ih =>
    have : bits (x :: xs) = bits [x] ++ bits xs := bits_append [x] xs
    rw [this, List.length_append, ih, List.length_cons]
    have : (bits [x]).length = 8 := rfl
    omega

theorem msg_append (a b : List Byte) : msg (a ++ b) = X ^ (8 * b.length) * msg a + msg b := by
  unfold msg
  rw [bits_append, poly_append, bits_length]

theorem G_eq : G = X ^ 24 + regPoly GENERATOR := by
  have h : ∀ i, (GENERATOR.getLsbD i) = Nat.testBit 0x00FFF409 i := fun i => rfl
  unfold regPoly G
  simp only [Finset.sum_range_succ, Finset.sum_range_zero, h]
  have e : ∀ i, bit (Nat.testBit 0x00FFF409 i) = if Nat.testBit 0x00FFF409 i then 1 else 0 := fun _ => rfl
  simp only [show Nat.testBit 0x00FFF409 0 = true from rfl, show Nat.testBit 0x00FFF409 1 = false from rfl,
    show Nat.testBit 0x00FFF409 2 = false from rfl, show Nat.testBit 0x00FFF409 3 = true from rfl,
    show Nat.testBit 0x00FFF409 4 = false from rfl, show Nat.testBit 0x00FFF409 5 = false from rfl,
    show Nat.testBit 0x00FFF409 6 = false from rfl, show Nat.testBit 0x00FFF409 7 = false from rfl,
    show Nat.testBit 0x00FFF409 8 = false from rfl, show Nat.testBit 0x00FFF409 9 = false from rfl,
    show Nat.testBit 0x00FFF409 10 = true from rfl, show Nat.testBit 0x00FFF409 11 = false from rfl,
    show Nat.testBit 0x00FFF409 12 = true from rfl, show Nat.testBit 0x00FFF409 13 = true from rfl,
    show Nat.testBit 0x00FFF409 14 = true from rfl, show Nat.testBit 0x00FFF409 15 = true from rfl,
    show Nat.testBit 0x00FFF409 16 = true from rfl, show Nat.testBit 0x00FFF409 17 = true from rfl,
    show Nat.testBit 0x00FFF409 18 = true from rfl, show Nat.testBit 0x00FFF409 19 = true from rfl,
    show Nat.testBit 0x00FFF409 20 = true from rfl, show Nat.testBit 0x00FFF409 21 = true from rfl,
    show Nat.testBit 0x00FFF409 22 = true from rfl, show Nat.testBit 0x00FFF409 23 = true from rfl,
    show bit true = 1 from rfl, show bit false = 0 from rfl, C_0, C_1, zero_mul, one_mul, pow_zero,
    add_zero, zero_add]
  ring

theorem coeff_G (n : Nat) : G.coeff n = if n = 24 then 1 else if n < 24 then bit (GENERATOR.getLsbD n) else 0 := by
  rw [G_eq, coeff_add, coeff_X_pow, coeff_regPoly]
  split
  · subst_vars; simp
  · simp

theorem regPoly_degree (r : BitVec 32) : (regPoly r).degree < 24 := by
  refine (Polynomial.degree_lt_iff_coeff_zero _ 24).mpr ?_
  intro m hm
  rw [coeff_regPoly, if_neg (by omega)]

theorem G_monic : G.Monic := by
  rw [G_eq]
  exact monic_X_pow_add (lt_of_lt_of_le (regPoly_degree _) (by norm_num))

theorem G_degree : G.degree = 24 := by
  rw [G_eq, degree_add_eq_left_of_degree_lt]
  · simp
  · rw [degree_X_pow]; exact regPoly_degree _

/-- Bit 24 of the shifted register, the condition of mod.rs:119. -/
theorem shift_test (r : BitVec 32) :
    (r <<< 1 &&& 0x01000000#32 ≠ 0#32) ↔ r.getLsbD 23 = true := by
  have h : (0x01000000#32) = BitVec.twoPow 32 24 := by decide
  rw [h, BitVec.and_twoPow]
  have : (r <<< 1).getLsbD 24 = r.getLsbD 23 := by simp [BitVec.getLsbD_shiftLeft]
  rw [this]
  split
  · rename_i h2; simp [h2]; decide
  · rename_i h2; simp only [ne_eq, not_true_eq_false, h2, Bool.false_eq_true]

theorem crcStep_bit (r : BitVec 32) (i : Nat) (hi : i < 24) :
    (crcStep r).getLsbD i = ((decide (0 < i) && r.getLsbD (i - 1)) ^^ (r.getLsbD 23 && GENERATOR.getLsbD i)) := by
  unfold crcStep
  simp only [shift_test]
  have hs : (r <<< 1).getLsbD i = (decide (0 < i) && r.getLsbD (i - 1)) := by
    rw [BitVec.getLsbD_shiftLeft]
    rcases Nat.eq_zero_or_pos i with rfl | h
    · simp
    · have : ¬ i < 1 := by omega
      simp [this, h, show i < 32 by omega]
  split
  · rename_i h
    rw [BitVec.getLsbD_xor, hs, h, Bool.true_and]
  · rename_i h
    rw [Bool.not_eq_true] at h
    rw [hs, h, Bool.false_and, Bool.xor_false]

theorem two_bit (b : Bool) : bit b + bit b = 0 := by cases b <;> decide

theorem bit_and (a b : Bool) : bit (a && b) = bit a * bit b := by cases a <;> cases b <;> decide

/-- One register step multiplies by `X` and reduces by the generator. -/
theorem regPoly_step (r : BitVec 32) :
    regPoly (crcStep r) = X * regPoly r + C (bit (r.getLsbD 23)) * G := by
  ext n
  rw [coeff_add, coeff_C_mul, coeff_regPoly, coeff_G]
  cases n with
  | zero =>
    rw [mul_coeff_zero, coeff_X_zero, zero_mul, zero_add, if_pos (by omega), if_neg (by omega),
      if_pos (by omega), crcStep_bit _ _ (by omega)]
    rw [← bit_and]; simp
  | succ n =>
    rw [coeff_X_mul, coeff_regPoly]
    by_cases h : n + 1 < 24
    · rw [if_pos h, if_pos (show n < 24 by omega), if_neg (show ¬ n + 1 = 24 by omega), if_pos h,
        crcStep_bit _ _ h, bit_xor, ← bit_and]
      simp
    · rw [if_neg h]
      by_cases h2 : n = 23
      · subst h2
        simp [two_bit]
      · rw [if_neg (show ¬ n < 24 by omega), if_neg (show ¬ n + 1 = 24 by omega), if_neg h]
        simp

theorem regPoly_iter (r : BitVec 32) (k : Nat) :
    G ∣ regPoly (crcStep^[k] r) - X ^ k * regPoly r := by
  induction k with
  | zero => simp
  | succ k ih =>
    rw [Function.iterate_succ_apply', regPoly_step]
    obtain ⟨q, hq⟩ := ih
    refine ⟨X * q + C (bit ((crcStep^[k] r).getLsbD 23)), ?_⟩
    have : regPoly (crcStep^[k] r) = G * q + X ^ k * regPoly r := by rw [← hq]; ring
    rw [this]; ring

theorem regPoly_load (r : BitVec 32) (b : Byte) :
    regPoly (r ^^^ (b.setWidth 32 <<< 16)) = regPoly r + X ^ 16 * msg [b] := by
  ext n
  rw [coeff_add, coeff_X_pow_mul', coeff_regPoly, coeff_regPoly]
  unfold msg
  rw [coeff_poly, bits_length]
  simp only [List.length_singleton, Nat.mul_one]
  by_cases h : n < 24
  · rw [if_pos h, if_pos h, BitVec.getLsbD_xor, bit_xor]
    congr 1
    by_cases h2 : 16 ≤ n
    · rw [if_pos h2, if_pos (by omega)]
      have : n = 16 ∨ n = 17 ∨ n = 18 ∨ n = 19 ∨ n = 20 ∨ n = 21 ∨ n = 22 ∨ n = 23 := by omega
      rcases this with rfl | rfl | rfl | rfl | rfl | rfl | rfl | rfl <;>
        simp [bits, BitVec.getLsbD_shiftLeft]
    · rw [if_neg h2, BitVec.getLsbD_shiftLeft]
      simp [show n < 16 by omega]; rfl
  · rw [if_neg h, if_neg h, if_pos (by omega), if_neg (by omega), add_zero]

theorem crcByte_poly (r : BitVec 32) (b : Byte) :
    G ∣ regPoly (crcByte r b) - (X ^ 8 * regPoly r + X ^ 24 * msg [b]) := by
  have := regPoly_iter (r ^^^ (b.setWidth 32 <<< 16)) 8
  rw [regPoly_load] at this
  unfold crcByte
  convert this using 2
  ring

theorem fold_poly (data : List Byte) (r : BitVec 32) :
    G ∣ regPoly (data.foldl crcByte r) - (X ^ (8 * data.length) * regPoly r + X ^ 24 * msg data) := by
  induction data generalizing r with
  | nil => simp [msg, bits, poly]
  | cons b rest ih =>
    obtain ⟨q, hq⟩ := ih (crcByte r b)
    obtain ⟨p, hp⟩ := crcByte_poly r b
    refine ⟨q + X ^ (8 * rest.length) * p, ?_⟩
    have hm : msg (b :: rest) = X ^ (8 * rest.length) * msg [b] + msg rest := msg_append [b] rest
    rw [List.foldl_cons, hm, List.length_cons, show 8 * (rest.length + 1) = 8 * rest.length + 8 by ring,
      pow_add]
    linear_combination hq + X ^ (8 * rest.length) * hp

theorem regPoly_zero : regPoly 0#32 = 0 := by
  ext n; rw [coeff_regPoly]; simp [bit]

theorem regPoly_mask (r : BitVec 32) : regPoly (r &&& 0x00FFFFFF#32) = regPoly r := by
  ext n
  rw [coeff_regPoly, coeff_regPoly]
  split
  · rename_i h
    have : (0x00FFFFFF#32).getLsbD n = true := by
      have : ∀ n : Fin 24, (0x00FFFFFF#32).getLsbD n = true := by decide
      exact this ⟨n, h⟩
    rw [BitVec.getLsbD_and, this, Bool.and_true]
  · rfl

/-- The register after the whole message is the message polynomial times `X^24`, reduced. -/
theorem crc24_poly (data : List Byte) : regPoly (crc24 data) = (X ^ 24 * msg data) %ₘ G := by
  unfold crc24
  rw [regPoly_mask]
  have h := fold_poly data 0#32
  rw [regPoly_zero, mul_zero, zero_add] at h
  obtain ⟨q, hq⟩ := h
  refine (div_modByMonic_unique (-q) _ G_monic ⟨?_, ?_⟩).2.symm
  · linear_combination hq
  · rw [G_degree]; exact regPoly_degree _

theorem regPoly_inj {a b : BitVec 32} (ha : a.toNat < 2 ^ 24) (hb : b.toNat < 2 ^ 24)
    (h : regPoly a = regPoly b) : a = b := by
  apply BitVec.eq_of_getLsbD_eq
  intro i hi
  by_cases h2 : i < 24
  · have := congrArg (fun p => p.coeff i) h
    simp only [coeff_regPoly, if_pos h2] at this
    revert this
    cases a.getLsbD i <;> cases b.getLsbD i <;> simp [bit]
  · have e : ∀ x : BitVec 32, x.toNat < 2 ^ 24 → x.getLsbD i = false := by
      intro x hx
      apply Nat.testBit_lt_two_pow
      exact lt_of_lt_of_le hx (Nat.pow_le_pow_right (by omega) (by omega))
    rw [e a ha, e b hb]

theorem crc24_lt (data : List Byte) : (crc24 data).toNat < 2 ^ 24 := by
  unfold crc24
  rw [BitVec.toNat_and]
  exact lt_of_le_of_lt Nat.and_le_right (by decide)

theorem coprime_X_G : IsCoprime (X : (ZMod 2)[X]) G := by
  refine ⟨-(X ^ 23 + X ^ 22 + X ^ 21 + X ^ 20 + X ^ 19 + X ^ 18 + X ^ 17 + X ^ 16 + X ^ 15 + X ^ 14 + X ^ 13
    + X ^ 12 + X ^ 11 + X ^ 9 + X ^ 2), 1, ?_⟩
  unfold G; ring

theorem dvd_of_dvd_X_pow {k : Nat} {p : (ZMod 2)[X]} (h : G ∣ X ^ k * p) : G ∣ p :=
  (IsCoprime.pow_left coprime_X_G).symm.dvd_of_dvd_mul_left h

/-- Zero residue means the message polynomial is a multiple of the generator. -/
theorem crc24_zero_iff (data : List Byte) : crc24 data = 0#32 ↔ G ∣ msg data := by
  constructor
  · intro h
    have := crc24_poly data
    rw [h, regPoly_zero] at this
    exact dvd_of_dvd_X_pow ((modByMonic_eq_zero_iff_dvd G_monic).mp this.symm)
  · intro h
    apply regPoly_inj (crc24_lt _) (by decide)
    rw [crc24_poly, regPoly_zero]
    exact (modByMonic_eq_zero_iff_dvd G_monic).mpr (Dvd.dvd.mul_left h _)

end Verif.Adsb
