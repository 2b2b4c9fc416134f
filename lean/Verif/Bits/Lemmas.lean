import Verif.Bits.Model
import Mathlib.Tactic.Linarith
import Mathlib.Tactic.Ring
import Mathlib.Tactic.NormNum
import Mathlib.Tactic.FieldSimp
import Mathlib.Tactic.Positivity
import Mathlib.Algebra.Order.Field.Power
import Mathlib.Data.Nat.Log

namespace Verif.Bits
open Verif.Text

@[simp] theorem natLE_length (k n : Nat) : (natLE k n).length = k := by
  induction k generalizing n with
  | zero => rfl
  | succ k ih => simp [natLE, ih]

@[simp] theorem natBytes_length (le : Bool) (k n : Nat) : (natBytes le k n).length = k := by
  unfold natBytes; split <;> simp

theorem leNat_natLE (k n : Nat) : leNat (natLE k n) = n % 256 ^ k := by
  induction k generalizing n with
  | zero => simp [natLE, leNat, Nat.mod_one]
  | succ k ih =>
    simp only [natLE, leNat, ih]
    have h : (UInt8.ofNat (n % 256)).toNat = n % 256 := by
      simp [UInt8.toNat_ofNat']
    rw [h, pow_succ, mul_comm (256 ^ k) 256, Nat.mod_mul]

theorem leNat_lt (b : Bytes) : leNat b < 256 ^ b.length := by
  induction b with
  | nil => simp [leNat]
  | cons x xs ih =>
    simp only [leNat, List.length_cons, pow_succ]
    have := x.toNat_lt
    omega

theorem bytesNat_natBytes (le : Bool) (k n : Nat) : bytesNat le (natBytes le k n) = n % 256 ^ k := by
  unfold bytesNat natBytes beNat
  cases le <;> simp [leNat_natLE]

theorem ofNat_bytes32 (le : Bool) (x : BitVec 32) :
    BitVec.ofNat 32 (bytesNat le (natBytes le 4 x.toNat)) = x := by
  rw [bytesNat_natBytes]
  have : x.toNat % 256 ^ 4 = x.toNat := Nat.mod_eq_of_lt (by have := x.isLt; omega)
  rw [this, BitVec.ofNat_toNat, BitVec.setWidth_eq]

theorem ofNat_bytes64 (le : Bool) (x : BitVec 64) :
    BitVec.ofNat 64 (bytesNat le (natBytes le 8 x.toNat)) = x := by
  rw [bytesNat_natBytes]
  have : x.toNat % 256 ^ 8 = x.toNat := Nat.mod_eq_of_lt (by have := x.isLt; omega)
  rw [this, BitVec.ofNat_toNat, BitVec.setWidth_eq]

theorem log2_lt53 {n : Nat} (h0 : n ≠ 0) (h : n < 2 ^ 53) : n.log2 < 53 :=
  (Nat.log2_lt h0).mpr h

theorem fOfNat_fields {n : Nat} (h0 : n ≠ 0) (h : n < 2 ^ 53) :
    (fOfNat n).toNat = (1023 + n.log2) * 2 ^ 52 + (n - 2 ^ n.log2) * 2 ^ (52 - n.log2) ∧
    (n - 2 ^ n.log2) * 2 ^ (52 - n.log2) < 2 ^ 52 := by
  have hl := log2_lt53 h0 h
  have h1 : 2 ^ n.log2 ≤ n := Nat.log2_self_le h0
  have h2 : n < 2 ^ (n.log2 + 1) := Nat.lt_log2_self
  have h3 : (n - 2 ^ n.log2) * 2 ^ (52 - n.log2) < 2 ^ 52 := by
    calc (n - 2 ^ n.log2) * 2 ^ (52 - n.log2) < 2 ^ n.log2 * 2 ^ (52 - n.log2) :=
          Nat.mul_lt_mul_of_pos_right (by rw [pow_succ] at h2; omega) (by positivity)
      _ = 2 ^ 52 := by rw [← pow_add]; congr 1; omega
  refine ⟨?_, h3⟩
  unfold fOfNat
  rw [if_neg h0, BitVec.toNat_ofNat]
  apply Nat.mod_eq_of_lt
  have : (1023 + n.log2) * 2 ^ 52 ≤ 1075 * 2 ^ 52 := Nat.mul_le_mul_right _ (by omega)
  omega

theorem fVal_fOfNat {n : Nat} (h : n < 2 ^ 53) : fVal (fOfNat n) = some (n : ℚ) := by
  by_cases h0 : n = 0
  · subst h0; simp [fOfNat, fVal, fExp, fMant, fSign]
  · obtain ⟨hw, hm⟩ := fOfNat_fields h0 h
    have hl := log2_lt53 h0 h
    have he : fExp (fOfNat n) = 1023 + n.log2 := by
      unfold fExp
      rw [hw, Nat.add_comm, Nat.add_mul_div_right _ _ (by positivity), Nat.div_eq_of_lt hm]
      have : (0 + (1023 + n.log2)) % 2 ^ 11 = 1023 + n.log2 := by
        rw [Nat.zero_add]; exact Nat.mod_eq_of_lt (by omega)
      exact this
    have hmm : fMant (fOfNat n) = (n - 2 ^ n.log2) * 2 ^ (52 - n.log2) := by
      unfold fMant
      rw [hw, Nat.add_comm, Nat.add_mul_mod_self_right, Nat.mod_eq_of_lt hm]
    have hs : fSign (fOfNat n) = false := by
      unfold fSign
      rw [hw]
      have : (1023 + n.log2) * 2 ^ 52 ≤ 1075 * 2 ^ 52 := Nat.mul_le_mul_right _ (by omega)
      simp only [decide_eq_false_iff_not]
      omega
    unfold fVal
    rw [he, hmm, hs, if_neg (by omega), if_neg (by omega)]
    simp only [Bool.false_eq_true, if_false, Option.some.injEq]
    have h1 : 2 ^ n.log2 ≤ n := Nat.log2_self_le h0
    have key : 2 ^ 52 + (n - 2 ^ n.log2) * 2 ^ (52 - n.log2) = n * 2 ^ (52 - n.log2) := by
      have : (2 : ℕ) ^ 52 = 2 ^ n.log2 * 2 ^ (52 - n.log2) := by
        rw [← pow_add]; congr 1; omega
      rw [this, ← Nat.add_mul]
      congr 1
      omega
    rw [key]
    push_cast
    have e : ((1023 : ℤ) + (n.log2 : ℤ)) - 1075 = -(((52 - n.log2 : ℕ) : ℤ)) := by
      rw [Nat.cast_sub (by omega)]; push_cast; ring
    rw [e, zpow_neg, zpow_natCast]
    field_simp

theorem fToUsize_fOfNat {n : Nat} (h : n < 2 ^ 53) : fToUsize (fOfNat n) = n := by
  unfold fToUsize fCast
  rw [fVal_fOfNat h]
  have : truncRat (n : ℚ) = n := by simp [truncRat]
  simp only [this]
  omega

theorem fToI64_fOfNat {n : Nat} (h : n < 2 ^ 53) : fToI64 (fOfNat n) = n := by
  unfold fToI64 fCast
  rw [fVal_fOfNat h]
  have : truncRat (n : ℚ) = n := by simp [truncRat]
  simp only [this]
  omega

theorem iToUsize_nat {n : Nat} (h : n < 2 ^ 64) : iToUsize (n : Int) = n := by
  unfold iToUsize; omega

theorem fCast_range {lo hi : Int} (h : lo ≤ hi) (h0 : lo ≤ 0) (h1 : 0 ≤ hi) (w : BitVec 64) :
    lo ≤ fCast lo hi w ∧ fCast lo hi w ≤ hi := by
  unfold fCast
  split
  · constructor <;> omega
  · split
    · exact ⟨h0, h1⟩
    · split <;> constructor <;> omega

theorem fToUsize_lt (w : BitVec 64) : fToUsize w < 2 ^ 64 := by
  have := fCast_range (lo := 0) (hi := 2 ^ 64 - 1) (by norm_num) (by norm_num) (by norm_num) w
  unfold fToUsize
  omega

theorem iToUsize_lt (i : Int) : iToUsize i < 2 ^ 64 := by
  unfold iToUsize; omega

theorem sliceB_holds {data pre mid post : Bytes} (h : data = pre ++ mid ++ post) :
    sliceB data pre.length mid.length = some mid := by
  subst h
  unfold sliceB
  rw [if_pos (by simp)]
  simp [List.append_assoc]

end Verif.Bits
