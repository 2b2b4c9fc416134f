import Verif.Adsb.Crc
import Mathlib.Data.Finset.Sort
import Mathlib.Algebra.Polynomial.Eval.Defs
import Mathlib.Algebra.Polynomial.Eval.Coeff

/-!
Which error patterns the parity check detects.
-/
namespace Verif.Adsb
open Polynomial Spec

namespace Spec

/-- Transmission positions (0-based) at which two byte strings differ. -/
def errors (a b : List Byte) : Finset Nat :=
  (Finset.range (bits a).length).filter
    (fun i => (bits a).getD i false ≠ (bits b).getD i false)

end Spec

/-- Polynomial of the difference of two messages. -/
noncomputable def diffPoly (a b : List Byte) : (ZMod 2)[X] := msg a + msg b

theorem bit_add_ne (x y : Bool) : bit x + bit y = if x ≠ y then 1 else 0 := by
  cases x <;> cases y <;> decide

theorem coeff_diff (a b : List Byte) (h : a.length = b.length) (n : Nat) :
    (diffPoly a b).coeff n =
      if n < 8 * a.length ∧ 8 * a.length - 1 - n ∈ errors a b then 1 else 0 := by
  unfold diffPoly msg errors
  rw [coeff_add, coeff_poly, coeff_poly]
  simp only [bits_length, ← h, Finset.mem_filter, Finset.mem_range]
  by_cases hn : n < 8 * a.length
  · rw [if_pos hn, if_pos hn, bit_add_ne]
    have : 8 * a.length - 1 - n < 8 * a.length := by omega
    simp only [hn, this, true_and]
  · rw [if_neg hn, if_neg hn]; simp [hn]

theorem byte_ext {x y : Byte} (h : bits [x] = bits [y]) : x = y := by
  apply BitVec.eq_of_getLsbD_eq
  intro i hi
  simp only [bits, List.flatMap_cons, List.flatMap_nil, List.append_nil, List.map_cons, List.map_nil,
    List.cons.injEq, and_true] at h
  obtain ⟨h7, h6, h5, h4, h3, h2, h1, h0⟩ := h
  have : i = 0 ∨ i = 1 ∨ i = 2 ∨ i = 3 ∨ i = 4 ∨ i = 5 ∨ i = 6 ∨ i = 7 := by omega
  rcases this with rfl | rfl | rfl | rfl | rfl | rfl | rfl | rfl <;> assumption

theorem bits_inj {a b : List Byte} (h : bits a = bits b) : a = b := by
  induction a generalizing b with
  | nil =>
    cases b with
    | nil => rfl
    | cons y ys => simp [bits] at h
  | cons x xs ih =>
    cases b with
    | nil => simp [bits] at h
    | cons y ys =>
      have e1 : bits (x :: xs) = bits [x] ++ bits xs := bits_append [x] xs
      have e2 : bits (y :: ys) = bits [y] ++ bits ys := bits_append [y] ys
      rw [e1, e2] at h
      obtain ⟨p, q⟩ := List.append_inj h rfl
      rw [byte_ext p, ih q]

theorem errors_nonempty {a b : List Byte} (h : a.length = b.length) (hne : a ≠ b) :
    (errors a b).Nonempty := by
  by_contra hc
  rw [Finset.not_nonempty_iff_eq_empty] at hc
  apply hne; apply bits_inj
  apply List.ext_getElem?
  intro i
  by_cases hi : i < (bits a).length
  · have hi2 : i < (bits b).length := by rw [bits_length] at *; omega
    have : i ∉ errors a b := by rw [hc]; simp
    simp only [errors, Finset.mem_filter, Finset.mem_range, hi, true_and, ne_eq, not_not,
      List.getD_eq_getElem _ _ hi, List.getD_eq_getElem _ _ hi2] at this
    rw [List.getElem?_eq_getElem hi, List.getElem?_eq_getElem hi2, this]
  · rw [List.getElem?_eq_none (by omega), List.getElem?_eq_none (by rw [bits_length] at *; omega)]

theorem errors_lt {a b : List Byte} {i : Nat} (h : i ∈ errors a b) : i < 8 * a.length := by
  simp only [errors, Finset.mem_filter, Finset.mem_range, bits_length] at h; exact h.1

theorem diff_ne_zero {a b : List Byte} (h : a.length = b.length) (hne : a ≠ b) : diffPoly a b ≠ 0 := by
  obtain ⟨i, hi⟩ := errors_nonempty h hne
  have hl := errors_lt hi
  intro h0
  have := coeff_diff a b h (8 * a.length - 1 - i)
  rw [h0, if_pos ⟨by omega, by convert hi using 1; omega⟩] at this
  simp at this

theorem dvd_diff {a b : List Byte} (ha : crc24 a = 0#32) (hb : crc24 b = 0#32) : G ∣ diffPoly a b :=
  dvd_add ((crc24_zero_iff a).mp ha) ((crc24_zero_iff b).mp hb)

theorem burst_detected' {a b : List Byte} (h : a.length = b.length) (hne : a ≠ b) (s : Nat)
    (hw : ∀ i ∈ errors a b, s ≤ i ∧ i < s + 24) (ha : crc24 a = 0#32) : crc24 b ≠ 0#32 := by
  intro hb
  have hd := dvd_diff ha hb
  set L := 8 * a.length with hL
  obtain ⟨q, hq⟩ : X ^ (L - (s + 24)) ∣ diffPoly a b := by
    rw [X_pow_dvd_iff]
    intro d hdl
    rw [coeff_diff a b h, if_neg]
    rintro ⟨_, hm⟩
    have := hw _ hm
    omega
  rw [hq] at hd
  have hdq := dvd_of_dvd_X_pow hd
  have hq0 : q ≠ 0 := by
    rintro rfl
    exact diff_ne_zero h hne (by rw [hq, mul_zero])
  apply hq0
  apply eq_zero_of_dvd_of_degree_lt hdq
  rw [G_degree]
  refine (Polynomial.degree_lt_iff_coeff_zero _ 24).mpr ?_
  intro m hm
  have : q.coeff m = (diffPoly a b).coeff (m + (L - (s + 24))) := by rw [hq, coeff_X_pow_mul]
  rw [this, coeff_diff a b h, if_neg]
  rintro ⟨_, hmm⟩
  have := hw _ hmm
  omega

/-- The difference polynomial as a sum of powers, one per error. -/
theorem diff_eq_sum {a b : List Byte} (h : a.length = b.length) :
    diffPoly a b = ∑ i ∈ errors a b, X ^ (8 * a.length - 1 - i) := by
  ext n
  rw [coeff_diff a b h, finset_sum_coeff]
  simp only [coeff_X_pow]
  split
  · rename_i hc
    rw [Finset.sum_eq_single (8 * a.length - 1 - n)]
    · rw [if_pos (by omega)]
    · intro j hj hne
      have := errors_lt hj
      rw [if_neg (by omega)]
    · intro hx; exact absurd hc.2 hx
  · rename_i hc
    symm; apply Finset.sum_eq_zero
    intro j hj
    have := errors_lt hj
    rw [if_neg]
    intro he
    apply hc
    refine ⟨by omega, ?_⟩
    convert hj using 1; omega

theorem eval_one_G : G.eval 1 = 0 := by
  unfold G
  simp only [eval_add, eval_pow, eval_X, eval_one, one_pow]
  decide

theorem odd_detected' {a b : List Byte} (h : a.length = b.length) (hodd : (errors a b).card % 2 = 1)
    (ha : crc24 a = 0#32) : crc24 b ≠ 0#32 := by
  intro hb
  obtain ⟨q, hq⟩ := dvd_diff ha hb
  have e : (diffPoly a b).eval 1 = 0 := by rw [hq, eval_mul, eval_one_G, zero_mul]
  rw [diff_eq_sum h, eval_finset_sum] at e
  simp only [eval_pow, eval_X, one_pow, Finset.sum_const, nsmul_eq_mul, mul_one] at e
  rw [ZMod.natCast_eq_zero_iff] at e
  omega

/-- Residues of `X^0 .. X^111` modulo the generator (checked by `powTable_step`). -/
def powTable : List Nat := [
  1, 2, 4, 8, 16, 32, 64, 128, 256, 512,
  1024, 2048, 4096, 8192, 16384, 32768, 65536, 131072, 262144, 524288,
  1048576, 2097152, 4194304, 8388608, 16774153, 7195, 14390, 28780, 57560, 115120,
  230240, 460480, 920960, 1841920, 3683840, 7367680, 14735360, 4080649, 8161298, 16322596,
  906305, 1812610, 3625220, 7250440, 14500880, 4553769, 9107538, 15336621, 2882899, 5765798,
  11531596, 10493585, 12568875, 8414815, 16726199, 99687, 199374, 398748, 797496, 1594992,
  3189984, 6379968, 12759936, 8033033, 16066066, 1423405, 2846810, 5693620, 11387240, 10778329,
  11999675, 9553791, 14449399, 4653543, 9307086, 14939029, 3674915, 7349830, 14699660, 4156689,
  8313378, 16626756, 302209, 604418, 1208836, 2417672, 4835344, 9670688, 14210121, 5135515,
  10271030, 13010533, 7534787, 15069574, 3413765, 6827530, 13655060, 6245409, 12490818, 8569997,
  16416019, 724527, 1449054, 2898108, 5796216, 11592432, 10367465, 12818395, 7920575, 15841150,
  1874677, 3749354]

def powReg (i : Nat) : BitVec 32 := BitVec.ofNat 32 (powTable.getD i 0)

theorem powTable_step : ∀ i : Fin 111, powReg (i + 1) = crcStep (powReg i) &&& 0x00FFFFFF#32 := by
  decide +kernel

theorem powTable_lt : ∀ i : Fin 112, powTable.getD i 0 < 2 ^ 24 := by decide +kernel

theorem powReg_poly (i : Nat) (h : i < 112) : G ∣ regPoly (powReg i) - X ^ i := by
  induction i with
  | zero =>
    have : regPoly (powReg 0) = 1 := by
      ext n
      rw [coeff_regPoly, coeff_one]
      have e : powReg 0 = 1#32 := rfl
      rw [e]
      by_cases hn : n = 0
      · subst hn; simp [bit]
      · rw [if_neg (show ¬ n = 0 from hn)]
        split
        · simp [BitVec.getLsbD_one, hn, bit]
        · rfl
    rw [this]; simp
  | succ i ih =>
    have e := powTable_step ⟨i, by omega⟩
    simp only at e
    rw [e, regPoly_mask, regPoly_step]
    obtain ⟨q, hq⟩ := ih (by omega)
    refine ⟨X * q + C (bit ((powReg i).getLsbD 23)), ?_⟩
    have : regPoly (powReg i) = G * q + X ^ i := by rw [← hq]; ring
    rw [this]; ring

theorem regPoly_xor (a b : BitVec 32) : regPoly (a ^^^ b) = regPoly a + regPoly b := by
  ext n
  rw [coeff_add, coeff_regPoly, coeff_regPoly, coeff_regPoly]
  split
  · rw [BitVec.getLsbD_xor, bit_xor]
  · simp

theorem regPoly_ofNat_zero {n : Nat} (h : n < 2 ^ 24) (h0 : regPoly (BitVec.ofNat 32 n) = 0) : n = 0 := by
  have e : (BitVec.ofNat 32 n).toNat = n := by
    rw [BitVec.toNat_ofNat]; apply Nat.mod_eq_of_lt
    exact lt_trans h (by decide)
  have := regPoly_inj (a := BitVec.ofNat 32 n) (b := 0#32) (by rw [e]; exact h) (by decide)
    (by rw [h0, regPoly_zero])
  rw [← e, this]; rfl

/-- No entry after `x`'s tail start equals `x xor c` for an earlier entry `c`. -/
def noPair (x : Nat) : List Nat → Bool
  | [] => true
  | c :: ds => (ds.all fun d => !(Nat.beq d (Nat.xor x c))) && noPair x ds

def noTriple (x : Nat) : List Nat → Bool
  | [] => true
  | b :: cs => noPair (Nat.xor x b) cs && noTriple x cs

theorem table_no_triple : noTriple 1 powTable.tail = true := by decide +kernel

theorem table_no_one : (powTable.tail.all fun d => !(Nat.beq d 1)) = true := by decide +kernel

theorem noPair_spec {x : Nat} {l : List Nat} (h : noPair x l = true) {i j : Nat} (hij : i < j)
    (hj : j < l.length) : l.getD j 0 ≠ x ^^^ l.getD i 0 := by
  induction l generalizing i j with
  | nil => simp at hj
  | cons c ds ih =>
    simp only [noPair, Bool.and_eq_true, List.all_eq_true] at h
    cases j with
    | zero => omega
    | succ j =>
      rw [List.length_cons] at hj
      cases i with
      | zero =>
        simp only [List.getD_cons_succ, List.getD_cons_zero]
        have hj' : j < ds.length := by omega
        rw [List.getD_eq_getElem _ _ hj']
        have := h.1 _ (List.getElem_mem hj')
        intro he
        rw [he] at this
        change (!(Nat.beq (x ^^^ c) (x ^^^ c))) = true at this
        simp at this
      | succ i =>
        simp only [List.getD_cons_succ]
        exact ih h.2 (by omega) (by omega)

theorem noTriple_spec {x : Nat} {l : List Nat} (h : noTriple x l = true) {i j k : Nat} (hij : i < j)
    (hjk : j < k) (hk : k < l.length) : l.getD k 0 ≠ x ^^^ l.getD i 0 ^^^ l.getD j 0 := by
  induction l generalizing i j k with
  | nil => simp at hk
  | cons b cs ih =>
    simp only [noTriple, Bool.and_eq_true] at h
    rw [List.length_cons] at hk
    obtain ⟨k, rfl⟩ : ∃ k', k = k' + 1 := ⟨k - 1, by omega⟩
    obtain ⟨j, rfl⟩ : ∃ j', j = j' + 1 := ⟨j - 1, by omega⟩
    cases i with
    | zero =>
      simp only [List.getD_cons_succ, List.getD_cons_zero]
      exact noPair_spec h.1 (by omega) (by omega)
    | succ i =>
      simp only [List.getD_cons_succ]
      exact ih h.2 (by omega) (by omega) (by omega)

theorem table_quad {b c d : Nat} (h0 : 0 < b) (h1 : b < c) (h2 : c < d) (h3 : d < 112) :
    1 ^^^ powTable.getD b 0 ^^^ powTable.getD c 0 ^^^ powTable.getD d 0 ≠ 0 := by
  have := noTriple_spec table_no_triple (i := b - 1) (j := c - 1) (k := d - 1) (by omega) (by omega)
    (by have : powTable.tail.length = 111 := by decide
        omega)
  have e : ∀ n, 0 < n → powTable.tail.getD (n - 1) 0 = powTable.getD n 0 := by
    intro n hn
    obtain ⟨m, rfl⟩ : ∃ m, n = m + 1 := ⟨n - 1, by omega⟩
    rfl
  rw [e b h0, e c (by omega), e d (by omega)] at this
  intro hx
  apply this
  have hh := congrArg (fun t => t ^^^ powTable.getD d 0) hx
  simp only [Nat.xor_assoc, Nat.xor_self, Nat.xor_zero, Nat.zero_xor] at hh
  simp only [Nat.xor_assoc]
  exact hh.symm

theorem table_pair {b : Nat} (h0 : 0 < b) (h3 : b < 112) : 1 ^^^ powTable.getD b 0 ≠ 0 := by
  obtain ⟨m, rfl⟩ : ∃ m, b = m + 1 := ⟨b - 1, by omega⟩
  have hl : powTable.tail.length = 111 := by decide
  have hm : m < powTable.tail.length := by omega
  have := (List.all_eq_true.mp table_no_one) _ (List.getElem_mem hm)
  rw [← List.getD_eq_getElem _ 0 hm] at this
  have e : powTable.getD (m + 1) 0 = powTable.tail.getD m 0 := rfl
  rw [e]
  intro hx
  have hh := congrArg (fun t => 1 ^^^ t) hx
  simp only [← Nat.xor_assoc, Nat.xor_self, Nat.zero_xor, Nat.xor_zero] at hh
  rw [hh] at this
  exact absurd this (by decide)

theorem two_pow_not_dvd {b : Nat} (h0 : 0 < b) (h1 : b < 112) : ¬ G ∣ (1 + X ^ b : (ZMod 2)[X]) := by
  intro h
  have key : G ∣ regPoly (BitVec.ofNat 32 (1 ^^^ powTable.getD b 0)) := by
    rw [BitVec.ofNat_xor]
    rw [show BitVec.ofNat 32 1 = powReg 0 from rfl, show BitVec.ofNat 32 (powTable.getD b 0) = powReg b from rfl,
      regPoly_xor]
    have a0 := powReg_poly 0 (by omega)
    have ab := powReg_poly b h1
    have := dvd_add (dvd_add a0 ab) h
    convert this using 1; ring
  have z := eq_zero_of_dvd_of_degree_lt key (by rw [G_degree]; exact regPoly_degree _)
  refine table_pair h0 h1 (regPoly_ofNat_zero ?_ z)
  exact Nat.xor_lt_two_pow (by decide) (powTable_lt ⟨b, h1⟩)

theorem four_pow_not_dvd {b c d : Nat} (h0 : 0 < b) (h1 : b < c) (h2 : c < d) (h3 : d < 112) :
    ¬ G ∣ (1 + X ^ b + X ^ c + X ^ d : (ZMod 2)[X]) := by
  intro h
  have key : G ∣ regPoly (BitVec.ofNat 32 (1 ^^^ powTable.getD b 0 ^^^ powTable.getD c 0 ^^^ powTable.getD d 0)) := by
    rw [BitVec.ofNat_xor, BitVec.ofNat_xor, BitVec.ofNat_xor]
    rw [show BitVec.ofNat 32 1 = powReg 0 from rfl, show BitVec.ofNat 32 (powTable.getD b 0) = powReg b from rfl,
      show BitVec.ofNat 32 (powTable.getD c 0) = powReg c from rfl,
      show BitVec.ofNat 32 (powTable.getD d 0) = powReg d from rfl, regPoly_xor, regPoly_xor, regPoly_xor]
    have a0 := powReg_poly 0 (by omega)
    have ab := powReg_poly b (by omega)
    have ac := powReg_poly c (by omega)
    have ad := powReg_poly d h3
    have := dvd_add (dvd_add (dvd_add (dvd_add a0 ab) ac) ad) h
    convert this using 1; ring
  have z := eq_zero_of_dvd_of_degree_lt key (by rw [G_degree]; exact regPoly_degree _)
  refine table_quad h0 h1 h2 h3 (regPoly_ofNat_zero ?_ z)
  exact Nat.xor_lt_two_pow (Nat.xor_lt_two_pow (Nat.xor_lt_two_pow (by decide) (powTable_lt ⟨b, by omega⟩))
    (powTable_lt ⟨c, by omega⟩)) (powTable_lt ⟨d, h3⟩)

theorem sum_sort (s : Finset Nat) (f : Nat → (ZMod 2)[X]) :
    ∑ i ∈ s, f i = ((s.sort (· ≤ ·)).map f).sum := by
  conv_lhs => rw [← Finset.sort_toFinset s (· ≤ ·)]
  rw [List.sum_toFinset _ (Finset.sort_nodup s _)]

theorem few_detected' {a b : List Byte} (hl : a.length = 14) (h : a.length = b.length) (hne : a ≠ b)
    (hc : (errors a b).card ≤ 5) (ha : crc24 a = 0#32) : crc24 b ≠ 0#32 := by
  by_cases hodd : (errors a b).card % 2 = 1
  · exact odd_detected' h hodd ha
  intro hb
  have hd := dvd_diff ha hb
  rw [diff_eq_sum h, sum_sort] at hd
  have hpos := Finset.card_pos.mpr (errors_nonempty h hne)
  have hlen : ((errors a b).sort (· ≤ ·)).length = (errors a b).card := Finset.length_sort _
  have hs := Finset.sortedLT_sort (errors a b)
  have hlt : ∀ i ∈ (errors a b).sort (· ≤ ·), i < 112 := by
    intro i hi
    rw [Finset.mem_sort] at hi
    have := errors_lt hi; omega
  generalize (errors a b).sort (· ≤ ·) = l at *
  rw [hl] at hd
  have hcase : l.length = 2 ∨ l.length = 4 := by omega
  rcases hcase with h2 | h4
  · obtain ⟨p, q, rfl⟩ := List.length_eq_two.mp h2
    have hp := List.sortedLT_iff_pairwise.mp hs
    simp only [List.pairwise_cons, List.mem_cons, List.not_mem_nil, or_false, forall_eq] at hp
    have l1 := hlt q (by simp)
    simp only [List.map_cons, List.map_nil, List.sum_cons, List.sum_nil, add_zero] at hd
    have e : (X : (ZMod 2)[X]) ^ (8 * 14 - 1 - p) + X ^ (8 * 14 - 1 - q) =
        X ^ (8 * 14 - 1 - q) * (1 + X ^ (q - p)) := by
      rw [mul_add, ← pow_add, show 8 * 14 - 1 - q + (q - p) = 8 * 14 - 1 - p by omega]; ring
    rw [e] at hd
    exact two_pow_not_dvd (by omega) (by omega) (dvd_of_dvd_X_pow hd)
  · match l, h4 with
    | [p, q, r, s], _ =>
      have hp := List.sortedLT_iff_pairwise.mp hs
      simp only [List.pairwise_cons, List.mem_cons, List.not_mem_nil, or_false, forall_eq_or_imp, forall_eq] at hp
      have l1 := hlt s (by simp)
      simp only [List.map_cons, List.map_nil, List.sum_cons, List.sum_nil, add_zero] at hd
      have e : (X : (ZMod 2)[X]) ^ (8 * 14 - 1 - p) + (X ^ (8 * 14 - 1 - q) + (X ^ (8 * 14 - 1 - r) + X ^ (8 * 14 - 1 - s))) =
          X ^ (8 * 14 - 1 - s) * (1 + X ^ (s - r) + X ^ (s - q) + X ^ (s - p)) := by
        rw [mul_add, mul_add, mul_add, ← pow_add, ← pow_add, ← pow_add,
          show 8 * 14 - 1 - s + (s - r) = 8 * 14 - 1 - r by omega,
          show 8 * 14 - 1 - s + (s - q) = 8 * 14 - 1 - q by omega,
          show 8 * 14 - 1 - s + (s - p) = 8 * 14 - 1 - p by omega]; ring
      rw [e] at hd
      exact four_pow_not_dvd (by omega) (by omega) (by omega) (by omega) (dvd_of_dvd_X_pow hd)

/-- The three parity bytes as a register. -/
def parityReg (p0 p1 p2 : Byte) : BitVec 32 := ((0#8 ++ p0) ++ p1) ++ p2

theorem parityReg_poly (p0 p1 p2 : Byte) : regPoly (parityReg p0 p1 p2) = msg [p0, p1, p2] := by
  ext n
  rw [coeff_regPoly]
  unfold msg
  rw [coeff_poly, bits_length]
  simp only [List.length_cons, List.length_nil]
  by_cases h : n < 24
  · rw [if_pos h, if_pos (by omega)]
    congr 1
    have : ∀ k : Fin 24, (parityReg p0 p1 p2).getLsbD k = (bits [p0, p1, p2]).getD (8 * (0 + 1 + 1 + 1) - 1 - k) false := by
      intro k
      have e : (parityReg p0 p1 p2).getLsbD k = ((((0#8 ++ p0) ++ p1) ++ p2 : BitVec (8 + 8 + 8 + 8)).getLsbD k) := rfl
      rw [e]
      simp only [BitVec.getLsbD_append]
      fin_cases k <;> simp [bits]
    exact this ⟨n, h⟩
  · rw [if_neg h, if_neg (by omega)]

theorem parity_iff (d : List Byte) (p0 p1 p2 : Byte) :
    crc24 (d ++ [p0, p1, p2]) = 0#32 ↔ crc24 d = parityReg p0 p1 p2 := by
  rw [crc24_zero_iff, msg_append]
  have hp : (parityReg p0 p1 p2).toNat < 2 ^ 24 := by
    unfold parityReg
    simp only [BitVec.toNat_append]
    have h0 := p0.isLt; have h1 := p1.isLt; have h2 := p2.isLt
    apply Nat.or_lt_two_pow _ (by omega)
    rw [Nat.shiftLeft_eq]
    have : (((0#8).toNat <<< 8 ||| p0.toNat) <<< 8 ||| p1.toNat) < 2 ^ 16 := by
      apply Nat.or_lt_two_pow _ (by omega)
      rw [Nat.shiftLeft_eq]
      have : ((0#8).toNat <<< 8 ||| p0.toNat) < 2 ^ 8 := by
        apply Nat.or_lt_two_pow _ (by omega)
        decide
      omega
    omega
  constructor
  · intro h
    apply regPoly_inj (crc24_lt _) hp
    rw [crc24_poly, parityReg_poly]
    obtain ⟨q, hq⟩ := h
    refine (div_modByMonic_unique q _ G_monic ⟨?_, ?_⟩).2
    · have t : msg [p0, p1, p2] + msg [p0, p1, p2] = 0 := CharTwo.add_self_eq_zero _
      have e : (8 * [p0, p1, p2].length) = 24 := rfl
      rw [e] at hq
      linear_combination t - hq
    · rw [G_degree, ← parityReg_poly]; exact regPoly_degree _
  · intro h
    have := crc24_poly d
    rw [h, parityReg_poly] at this
    have e : (8 * [p0, p1, p2].length) = 24 := rfl
    rw [e, this]
    refine ⟨X ^ 24 * msg d /ₘ G, ?_⟩
    have t : msg [p0, p1, p2] + msg [p0, p1, p2] = 0 := CharTwo.add_self_eq_zero _
    rw [this] at t
    have := modByMonic_add_div (X ^ 24 * msg d) G
    linear_combination t - this

end Verif.Adsb
