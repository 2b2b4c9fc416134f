import Verif.Sha256.Model
import Verif.Sha256.Spec

/-! Helper lemmas for the SHA-256 refinement. -/
namespace Verif.Sha256

theorem rotr_eq (x : Word) (n : Nat) (h : n < 32) : rotr x n = Spec.ROTR n x := by
  unfold rotr Spec.ROTR
  rw [BitVec.rotateRight_def, Nat.mod_eq_of_lt h]

theorem K_eq : ∀ i, i < 64 → K.getD i 0 = Spec.Kconst i := by
  decide +kernel

theorem H0_eq : ∀ i, i < 8 → H0.getD i 0 = Spec.Hconst i := by
  decide +kernel

theorem beWord_eq (b0 b1 b2 b3 : BitVec 8) :
    ((b0.setWidth 32 <<< 24) ||| (b1.setWidth 32 <<< 16) ||| (b2.setWidth 32 <<< 8)
      ||| b3.setWidth 32) = Spec.beWord b0 b1 b2 b3 := by
  apply BitVec.eq_of_getLsbD_eq
  intro i hi
  have : (Spec.beWord b0 b1 b2 b3).getLsbD i
      = BitVec.getLsbD (b0 ++ b1 ++ b2 ++ b3 : BitVec (8 + 8 + 8 + 8)) i := rfl
  rw [this]
  simp only [BitVec.getLsbD_append, BitVec.getLsbD_or, BitVec.getLsbD_shiftLeft,
    BitVec.getLsbD_setWidth]
  by_cases h1 : i < 8
  · simp [h1, hi, show i < 16 by omega, show i < 24 by omega]
  · by_cases h2 : i < 16
    · have : i - 8 < 8 := by omega
      simp [h1, h2, hi, this, show i < 24 by omega, show i - 8 < 32 by omega,
        BitVec.getLsbD_of_ge b3 i (by omega)]
    · by_cases h3 : i < 24
      · have : i - 16 < 8 := by omega
        simp [h1, h2, h3, hi, BitVec.getLsbD_of_ge b3 i (by omega),
          BitVec.getLsbD_of_ge b2 (i - 8) (by omega), show ¬ i - 8 < 8 by omega, this,
          show i - 8 - 8 = i - 16 by omega]
        omega
      · have : i - 24 < 8 := by omega
        simp [h1, h2, h3, hi, BitVec.getLsbD_of_ge b3 i (by omega),
          BitVec.getLsbD_of_ge b2 (i - 8) (by omega), BitVec.getLsbD_of_ge b1 (i - 16) (by omega),
          show ¬ i - 8 < 8 by omega, show ¬ i - 16 < 8 by omega, this,
          show i - 16 - 8 = i - 24 by omega, show i - 8 - 8 = i - 16 by omega,
          show i - 24 < 32 by omega]

theorem getD_set {α} (l : List α) (i j : Nat) (v d : α) (hi : i < l.length) :
    (l.set i v).getD j d = if j = i then v else l.getD j d := by
  simp only [List.getD_eq_getElem?_getD, List.getElem?_set]
  by_cases h : i = j
  · subst h; simp [hi]
  · simp [h, Ne.symm h]

/-- Length and contents after writing `f 0 .. f (n-1)` into the front of a list. -/
theorem foldl_set {α} (f : Nat → α) (d : α) (l : List α) (n : Nat) (hn : n ≤ l.length) :
    ((List.range n).foldl (fun w i => w.set i (f i)) l).length = l.length ∧
    ∀ t, ((List.range n).foldl (fun w i => w.set i (f i)) l).getD t d
      = if t < n then f t else l.getD t d := by
  induction n with
  | zero => simp
  | succ n ih =>
    obtain ⟨h1, h2⟩ := ih (by omega)
    rw [List.range_succ, List.foldl_append]
    simp only [List.foldl_cons, List.foldl_nil, List.length_set]
    refine ⟨h1, fun t => ?_⟩
    rw [getD_set _ _ _ _ _ (by omega), h2]
    by_cases h : t = n
    · subst h; simp
    · simp only [h, if_false]
      by_cases h' : t < n
      · simp [h', show t < n + 1 by omega]
      · simp [h', show ¬ t < n + 1 by omega]

theorem loadWords_spec (block : List Byte) :
    (loadWords block).length = 64 ∧ ∀ t, t < 16 →
      (loadWords block).getD t 0 = Spec.W (fun k => block.getD k 0) t := by
  unfold loadWords
  obtain ⟨h1, h2⟩ := foldl_set (fun i => (((block.getD (i * 4) 0).setWidth 32 <<< 24)
        ||| ((block.getD (i * 4 + 1) 0).setWidth 32 <<< 16)
        ||| ((block.getD (i * 4 + 2) 0).setWidth 32 <<< 8)
        ||| (block.getD (i * 4 + 3) 0).setWidth 32 : Word)) 0 (List.replicate 64 (0 : Word)) 16 (by simp)
  refine ⟨by simpa using h1, fun t ht => ?_⟩
  rw [h2 t, if_pos ht, Spec.W, if_pos ht, beWord_eq, Nat.mul_comm 4 t]

theorem schedule_aux (block : List Byte) (n : Nat) (hn : n ≤ 48) :
    ((List.range' 16 n).foldl scheduleStep (loadWords block)).length = 64 ∧ ∀ t, t < 16 + n →
      ((List.range' 16 n).foldl scheduleStep (loadWords block)).getD t 0
        = Spec.W (fun k => block.getD k 0) t := by
  induction n with
  | zero => simpa using loadWords_spec block
  | succ n ih =>
    obtain ⟨h1, h2⟩ := ih (by omega)
    rw [List.range'_concat, List.foldl_append]
    simp only [List.foldl_cons, List.foldl_nil, Nat.one_mul]
    generalize ((List.range' 16 n).foldl scheduleStep (loadWords block)) = w at h1 h2
    unfold scheduleStep
    simp only [List.length_set]
    refine ⟨h1, fun t ht => ?_⟩
    rw [getD_set _ _ _ _ _ (by omega)]
    by_cases h : t = 16 + n
    · subst h
      simp only [if_true]
      rw [h2 _ (by omega), h2 _ (by omega), h2 _ (by omega), h2 _ (by omega)]
      conv => rhs; rw [Spec.W, if_neg (by omega)]
      simp only [rotr_eq _ 7 (by omega), rotr_eq _ 18 (by omega), rotr_eq _ 17 (by omega),
        rotr_eq _ 19 (by omega)]
      unfold Spec.sigma1 Spec.sigma0 Spec.SHR
      generalize Spec.W _ (16 + n - 16) = a
      generalize Spec.W _ (16 + n - 15) = b
      generalize Spec.W _ (16 + n - 7) = c
      generalize Spec.W _ (16 + n - 2) = d
      ac_rfl
    · rw [if_neg h]; exact h2 t (by omega)

theorem schedule_spec (block : List Byte) (t : Nat) (ht : t < 64) :
    (schedule block).getD t 0 = Spec.W (fun k => block.getD k 0) t :=
  (schedule_aux block 48 (by omega)).2 t ht

/-- The working variables as an indexed family. -/
def Vars.toHash (v : Vars) : Spec.Hash
  | 0 => v.a | 1 => v.b | 2 => v.c | 3 => v.d | 4 => v.e | 5 => v.f | 6 => v.g | _ => v.h

theorem round_spec (block : List Byte) (H : Spec.Hash) (v : Vars) (t : Nat) (ht : t < 64)
    (h : ∀ i, i < 8 → v.toHash i = Spec.vars (fun k => block.getD k 0) H t i) :
    ∀ i, i < 8 → (round (schedule block) v t).toHash i
      = Spec.vars (fun k => block.getD k 0) H (t + 1) i := by
  intro i hi
  have h0 := h 0 (by omega); have h1 := h 1 (by omega); have h2 := h 2 (by omega)
  have h3 := h 3 (by omega); have h4 := h 4 (by omega); have h5 := h 5 (by omega)
  have h6 := h 6 (by omega); have h7 := h 7 (by omega)
  simp only [Vars.toHash] at h0 h1 h2 h3 h4 h5 h6 h7
  simp only [Spec.vars, ← h0, ← h1, ← h2, ← h3, ← h4, ← h5, ← h6, ← h7, ← K_eq t ht,
    ← schedule_spec block t ht]
  unfold round
  simp only [rotr_eq _ 6 (by omega), rotr_eq _ 11 (by omega), rotr_eq _ 25 (by omega),
    rotr_eq _ 2 (by omega), rotr_eq _ 13 (by omega), rotr_eq _ 22 (by omega)]
  have : i = 0 ∨ i = 1 ∨ i = 2 ∨ i = 3 ∨ i = 4 ∨ i = 5 ∨ i = 6 ∨ i = 7 := by omega
  rcases this with rfl | rfl | rfl | rfl | rfl | rfl | rfl | rfl <;>
    simp [Vars.toHash, Spec.Sigma0, Spec.Sigma1, Spec.Ch, Spec.Maj, h0, h1, h2, h3, h4, h5, h6, h7]

theorem rounds_spec (block : List Byte) (H : Spec.Hash) (v0 : Vars) (n : Nat) (hn : n ≤ 64)
    (h : ∀ i, i < 8 → v0.toHash i = H i) :
    ∀ i, i < 8 → ((List.range n).foldl (round (schedule block)) v0).toHash i
      = Spec.vars (fun k => block.getD k 0) H n i := by
  induction n with
  | zero => simpa [Spec.vars] using h
  | succ n ih =>
    rw [List.range_succ, List.foldl_append]
    exact round_spec block H _ n (by omega) (ih (by omega))

/-- A state list represents a hash value. -/
def Rep (s : List Word) (H : Spec.Hash) : Prop := s.length = 8 ∧ ∀ i, i < 8 → s.getD i 0 = H i

theorem compress_spec (s : List Word) (block : List Byte) (H : Spec.Hash) (h : Rep s H) :
    Rep (compress s block) (Spec.hashBlock H (fun k => block.getD k 0)) := by
  refine ⟨rfl, fun i hi => ?_⟩
  have key := rounds_spec block H
    { a := s.getD 0 0, b := s.getD 1 0, c := s.getD 2 0, d := s.getD 3 0,
      e := s.getD 4 0, f := s.getD 5 0, g := s.getD 6 0, h := s.getD 7 0 } 64 (by omega) (by
      intro i hi
      have : i = 0 ∨ i = 1 ∨ i = 2 ∨ i = 3 ∨ i = 4 ∨ i = 5 ∨ i = 6 ∨ i = 7 := by omega
      rcases this with rfl | rfl | rfl | rfl | rfl | rfl | rfl | rfl <;>
        exact h.2 _ (by omega))
  unfold Spec.hashBlock
  rw [← key i hi, ← h.2 i hi]
  unfold compress
  have : i = 0 ∨ i = 1 ∨ i = 2 ∨ i = 3 ∨ i = 4 ∨ i = 5 ∨ i = 6 ∨ i = 7 := by omega
  rcases this with rfl | rfl | rfl | rfl | rfl | rfl | rfl | rfl <;>
    (simp only [List.getD_cons_zero, List.getD_cons_succ]; exact BitVec.add_comm _ _)

theorem W_congr (f g : Nat → Byte) (h : ∀ k, k < 64 → f k = g k) (t : Nat) :
    Spec.W f t = Spec.W g t := by
  induction t using Nat.strongRecOn with
  | _ t ih =>
    rw [Spec.W.eq_def f t, Spec.W.eq_def g t]
    by_cases ht : t < 16
    · rw [if_pos ht, if_pos ht, h _ (by omega), h _ (by omega), h _ (by omega), h _ (by omega)]
    · rw [if_neg ht, if_neg ht, ih _ (by omega), ih _ (by omega), ih _ (by omega), ih _ (by omega)]

theorem hashBlock_congr (H : Spec.Hash) (f g : Nat → Byte) (h : ∀ k, k < 64 → f k = g k) :
    Spec.hashBlock H f = Spec.hashBlock H g := by
  have : ∀ n, Spec.vars f H n = Spec.vars g H n := by
    intro n
    induction n with
    | zero => rfl
    | succ n ih => simp only [Spec.vars, ih, W_congr f g h]
  unfold Spec.hashBlock
  rw [this]

theorem readBlock_getD (src : List Byte) (off k : Nat) (hk : k < 64) :
    (readBlock src off).getD k 0 = src.getD (off + k) 0 := by
  unfold readBlock
  simp [List.getD_eq_getElem?_getD, hk]

theorem compress_block (s : List Word) (H : Spec.Hash) (src p : List Byte) (off n : Nat)
    (hs : Rep s H) (hp : ∀ k, k < 64 → src.getD (off + k) 0 = p.getD (64 * n + k) 0) :
    Rep (compress s (readBlock src off)) (Spec.hashBlock H (fun k => p.getD (64 * n + k) 0)) := by
  have := compress_spec s (readBlock src off) H hs
  rwa [hashBlock_congr H _ (fun k => p.getD (64 * n + k) 0)
    (fun k hk => by rw [readBlock_getD _ _ _ hk, hp k hk])] at this

theorem fullBlocks_spec (input p : List Byte) (hp : ∀ k, k < input.length → p.getD k 0 = input.getD k 0)
    (s : List Word) (n : Nat) (hs : Rep s (Spec.hashN p n)) (hn : 64 * n ≤ input.length) :
    (fullBlocks input s (64 * n)).2 = 64 * (input.length / 64) ∧
      Rep (fullBlocks input s (64 * n)).1 (Spec.hashN p (input.length / 64)) := by
  by_cases h : 64 * n + 64 ≤ input.length
  · rw [fullBlocks, if_pos h, show 64 * n + 64 = 64 * (n + 1) by omega]
    refine fullBlocks_spec input p hp _ (n + 1) ?_ (by omega)
    exact compress_block s _ input p (64 * n) n hs (fun k hk => (hp _ (by omega)).symm)
  · rw [fullBlocks, if_neg h]
    have : input.length / 64 = n := by omega
    rw [this]
    exact ⟨rfl, hs⟩
termination_by input.length - 64 * n

theorem tailBlocks_spec (tail p : List Byte) (fin off : Nat) (q : Nat) (hoff : off = 64 * q)
    (hp : ∀ k, k < fin → tail.getD k 0 = p.getD (off + k) 0) (r : Nat) (hfin : fin = 64 * r)
    (s : List Word) (n : Nat) (hs : Rep s (Spec.hashN p (q + n))) (hn : n ≤ r) :
    Rep (tailBlocks tail fin s (64 * n)) (Spec.hashN p (q + r)) := by
  by_cases h : 64 * n < fin
  · rw [tailBlocks, if_pos h, show 64 * n + 64 = 64 * (n + 1) by omega]
    refine tailBlocks_spec tail p fin off q hoff hp r hfin _ (n + 1) ?_ (by omega)
    refine compress_block s _ tail p (64 * n) (q + n) hs (fun k hk => ?_)
    rw [hp _ (by omega), hoff]; congr 1; omega
  · rw [tailBlocks, if_neg h]
    have : n = r := by omega
    rwa [← this]
termination_by fin - 64 * n

theorem lenByte (len s : Nat) (hs : s ≤ 56) :
    ((BitVec.ofNat 64 len * 8 : BitVec 64) >>> s).setWidth 8 = BitVec.ofNat 8 (8 * len / 2 ^ s) := by
  have : (BitVec.ofNat 64 len * 8 : BitVec 64) = BitVec.ofNat 64 (8 * len) := by
    apply BitVec.eq_of_toNat_eq
    simp [BitVec.toNat_mul, Nat.mul_comm]
  rw [this]
  apply BitVec.eq_of_getLsbD_eq
  intro i hi
  simp only [BitVec.getLsbD_setWidth, BitVec.getLsbD_ushiftRight, BitVec.getLsbD_ofNat,
    Nat.testBit_div_two_pow, hi, show s + i < 64 by omega, Nat.add_comm i s]
  simp

theorem padZeros_eq (len : Nat) : padZeros (len - 64 * (len / 64)) = Spec.zeros len := by
  unfold padZeros Spec.zeros
  have : (len - 64 * (len / 64)) % 64 = len % 64 := by omega
  rw [this]
  split <;> omega

theorem pad_length (m : List Byte) : (Spec.pad m).length = m.length + 1 + Spec.zeros m.length + 8 := by
  unfold Spec.pad Spec.be64
  simp
  omega

theorem pad_getD_front (m : List Byte) (k : Nat) (hk : k < m.length) :
    (Spec.pad m).getD k 0 = m.getD k 0 := by
  unfold Spec.pad
  simp [List.getD_eq_getElem?_getD, List.getElem?_append_left hk]

theorem pad_getD_mark (m : List Byte) : (Spec.pad m).getD m.length 0 = 0x80 := by
  unfold Spec.pad
  simp [List.getD_eq_getElem?_getD]

theorem pad_getD_zero (m : List Byte) (k : Nat) (h1 : m.length < k)
    (h2 : k < m.length + 1 + Spec.zeros m.length) : (Spec.pad m).getD k 0 = 0 := by
  unfold Spec.pad
  rw [List.getD_eq_getElem?_getD, List.getElem?_append_right (by omega)]
  obtain ⟨j, rfl⟩ : ∃ j, k = m.length + 1 + j := ⟨k - m.length - 1, by omega⟩
  rw [show m.length + 1 + j - m.length = j + 1 by omega, List.getElem?_cons_succ,
    List.getElem?_append_left (by simp; omega), List.getElem?_replicate, if_pos (by omega)]
  rfl

theorem pad_getD_len (m : List Byte) (j : Nat) :
    (Spec.pad m).getD (m.length + 1 + Spec.zeros m.length + j) 0 = (Spec.be64 (8 * m.length)).getD j 0 := by
  unfold Spec.pad
  rw [List.getD_eq_getElem?_getD, List.getElem?_append_right (by omega),
    show m.length + 1 + Spec.zeros m.length + j - m.length = Spec.zeros m.length + j + 1 by omega,
    List.getElem?_cons_succ, List.getElem?_append_right (by simp)]
  simp [List.getD_eq_getElem?_getD]

theorem mkTail_spec (m : List Byte) (k : Nat)
    (hk : k < finalLen (m.length - 64 * (m.length / 64))) :
    (mkTail m (64 * (m.length / 64))).getD k 0 = (Spec.pad m).getD (64 * (m.length / 64) + k) 0 := by
  have hz := padZeros_eq m.length
  have hzl : m.length - 64 * (m.length / 64) + Spec.zeros m.length + 9 ≤ 128 := by
    unfold Spec.zeros; omega
  unfold mkTail
  unfold finalLen at *
  generalize hr : m.length - 64 * (m.length / 64) = rem at *
  rw [hz] at hk
  simp only [hz]
  have hrl : rem < 64 := by omega
  obtain ⟨h1, h2⟩ := foldl_set (fun k => m.getD (64 * (m.length / 64) + k) 0) (0 : Byte)
    (List.replicate 128 (0 : Byte)) rem (by simp; omega)
  simp only [List.length_replicate] at h1
  generalize (List.range rem).foldl (fun t k => t.set k (m.getD (64 * (m.length / 64) + k) 0))
    (List.replicate 128 0) = t0 at *
  rw [getD_set _ _ _ _ _ (by simp [h1]; omega), getD_set _ _ _ _ _ (by simp [h1]; omega),
    getD_set _ _ _ _ _ (by simp [h1]; omega), getD_set _ _ _ _ _ (by simp [h1]; omega),
    getD_set _ _ _ _ _ (by simp [h1]; omega), getD_set _ _ _ _ _ (by simp [h1]; omega),
    getD_set _ _ _ _ _ (by simp [h1]; omega), getD_set _ _ _ _ _ (by simp [h1]; omega),
    getD_set _ _ _ _ _ (by simp [h1]; omega), h2]
  have hlen : m.length = 64 * (m.length / 64) + rem := by omega
  have hb : ∀ j, rem + 1 + Spec.zeros m.length + 8 - 8 + j = k →
      (Spec.pad m).getD (64 * (m.length / 64) + k) 0 = (Spec.be64 (8 * m.length)).getD j 0 := by
    intro j hj
    rw [← pad_getD_len]; congr 1; omega
  by_cases c7 : k = rem + 1 + Spec.zeros m.length + 8 - 8 + 7
  · rw [if_pos c7, hb 7 c7.symm]; simpa [Spec.be64] using lenByte m.length 0 (by omega)
  rw [if_neg c7]
  by_cases c6 : k = rem + 1 + Spec.zeros m.length + 8 - 8 + 6
  · rw [if_pos c6, hb 6 c6.symm]; exact lenByte m.length 8 (by omega)
  rw [if_neg c6]
  by_cases c5 : k = rem + 1 + Spec.zeros m.length + 8 - 8 + 5
  · rw [if_pos c5, hb 5 c5.symm]; exact lenByte m.length 16 (by omega)
  rw [if_neg c5]
  by_cases c4 : k = rem + 1 + Spec.zeros m.length + 8 - 8 + 4
  · rw [if_pos c4, hb 4 c4.symm]; exact lenByte m.length 24 (by omega)
  rw [if_neg c4]
  by_cases c3 : k = rem + 1 + Spec.zeros m.length + 8 - 8 + 3
  · rw [if_pos c3, hb 3 c3.symm]; exact lenByte m.length 32 (by omega)
  rw [if_neg c3]
  by_cases c2 : k = rem + 1 + Spec.zeros m.length + 8 - 8 + 2
  · rw [if_pos c2, hb 2 c2.symm]; exact lenByte m.length 40 (by omega)
  rw [if_neg c2]
  by_cases c1 : k = rem + 1 + Spec.zeros m.length + 8 - 8 + 1
  · rw [if_pos c1, hb 1 c1.symm]; exact lenByte m.length 48 (by omega)
  rw [if_neg c1]
  by_cases c0 : k = rem + 1 + Spec.zeros m.length + 8 - 8
  · rw [if_pos c0, hb 0 c0.symm]; exact lenByte m.length 56 (by omega)
  rw [if_neg c0]
  by_cases cm : k = rem
  · rw [if_pos cm, cm, ← hlen, pad_getD_mark]
  rw [if_neg cm]
  by_cases cf : k < rem
  · rw [if_pos cf, pad_getD_front _ _ (by omega)]
  · rw [if_neg cf, pad_getD_zero _ _ (by omega) (by omega)]
    rw [List.getD_eq_getElem?_getD, List.getElem?_replicate]
    split <;> rfl

theorem output_spec (s : List Word) (H : Spec.Hash) (h : Rep s H) :
    output s = (List.range 8).flatMap (fun i => [24, 16, 8, 0].map (fun k => (H i >>> k).setWidth 8)) := by
  have e : ∀ i, i < 8 → s.getD i 0 = H i := h.2
  simp only [output, List.range, List.range.loop, List.foldl_cons, List.foldl_nil,
    e 0 (by omega), e 1 (by omega), e 2 (by omega), e 3 (by omega), e 4 (by omega),
    e 5 (by omega), e 6 (by omega), e 7 (by omega), List.replicate]
  simp

theorem sha256_refines (m : List Byte) : sha256 m = Spec.sha256 m := by
  have hrep0 : Rep H0 (Spec.hashN (Spec.pad m) 0) := ⟨rfl, fun i hi => H0_eq i hi⟩
  obtain ⟨h1, h2⟩ := fullBlocks_spec m (Spec.pad m) (fun k hk => pad_getD_front m k hk) H0 0 hrep0
    (by omega)
  simp only [Nat.mul_zero] at h1 h2
  unfold sha256 Spec.sha256
  generalize fullBlocks m H0 0 = r at h1 h2
  obtain ⟨s, off⟩ := r
  simp only at h1 h2
  subst h1
  simp only
  have hpl := pad_length m
  have hz := padZeros_eq m.length
  have hd : 64 ∣ (Spec.pad m).length := by
    rw [hpl]; unfold Spec.zeros; omega
  have hfl : finalLen (m.length - 64 * (m.length / 64))
      = 64 * ((Spec.pad m).length / 64 - m.length / 64) := by
    unfold finalLen; rw [hz]; omega
  apply output_spec
  have := tailBlocks_spec (mkTail m (64 * (m.length / 64))) (Spec.pad m)
    (finalLen (m.length - 64 * (m.length / 64))) (64 * (m.length / 64)) (m.length / 64) rfl
    (fun k hk => mkTail_spec m k hk) ((Spec.pad m).length / 64 - m.length / 64) hfl s 0 h2 (by omega)
  rwa [show m.length / 64 + ((Spec.pad m).length / 64 - m.length / 64) = (Spec.pad m).length / 64 by
    omega] at this

theorem sha256_length (m : List Byte) : (sha256 m).length = 32 := by
  rw [sha256_refines]; unfold Spec.sha256; simp; decide

/-! Hex helpers. -/

theorem hexNibble_eq (b : Byte) :
    hexNibble b = (Spec.hexVal (Char.ofNat b.toNat)).map (BitVec.ofNat 8) := by
  revert b
  decide +kernel

theorem hexNibble_lt (b v : Byte) (h : hexNibble b = some v) : v < 16 := by
  revert b v
  decide +kernel

theorem hexNibble_table_hi (b : Byte) : hexNibble (hexTable.getD (b >>> 4).toNat 0) = some (b >>> 4) := by
  revert b; decide +kernel

theorem hexNibble_table_lo (b : Byte) :
    hexNibble (hexTable.getD (b &&& 0x0f).toNat 0) = some (b &&& 0x0f) := by
  revert b; decide +kernel

theorem toHex_eq_flatMap (d : List Byte) :
    toHex d = d.flatMap (fun b : Byte => [hexTable.getD (b >>> 4).toNat 0, hexTable.getD (b &&& 0x0f).toNat 0]) := by
  unfold toHex
  rw [List.flatMap_eq_foldl]
  congr 1
  funext s b
  simp

/-- Number of hex digit pairs decoded by the loop of `hex32`. -/
theorem hex32_loop (s : List Byte) (n : Nat) (hn : n ≤ 32) (g : Nat → Byte)
    (h : ∀ i, i < n → ∃ hi lo, hexNibble (s.getD (2 * i) 0) = some hi ∧
      hexNibble (s.getD (2 * i + 1) 0) = some lo ∧ g i = (hi <<< 4) ||| lo) :
    (List.range n).foldlM (fun (out : List Byte) i => do
      let hi ← hexNibble (s.getD (2 * i) 0)
      let lo ← hexNibble (s.getD (2 * i + 1) 0)
      pure (out.set i ((hi <<< 4) ||| lo))) (List.replicate 32 0)
    = some ((List.range n).foldl (fun w i => w.set i (g i)) (List.replicate 32 0)) := by
  induction n with
  | zero => rfl
  | succ n ih =>
    rw [List.range_succ, List.foldlM_append, ih (by omega) (fun i hi => h i (by omega)),
      List.foldl_append]
    obtain ⟨hi, lo, h1, h2, h3⟩ := h n (by omega)
    simp only [Option.bind_eq_bind, Option.bind_some, List.foldlM_cons, List.foldlM_nil, h1, h2, h3,
      List.foldl_cons, List.foldl_nil, Option.pure_def]

theorem hex32_loop_none (s : List Byte) (n : Nat) (i : Nat) (hi : i < n)
    (h : hexNibble (s.getD (2 * i) 0) = none ∨ hexNibble (s.getD (2 * i + 1) 0) = none) (l : List Byte) :
    (List.range n).foldlM (fun (out : List Byte) i => do
      let hi ← hexNibble (s.getD (2 * i) 0)
      let lo ← hexNibble (s.getD (2 * i + 1) 0)
      pure (out.set i ((hi <<< 4) ||| lo))) l = none := by
  induction n with
  | zero => omega
  | succ n ih =>
    rw [List.range_succ, List.foldlM_append]
    by_cases hin : i < n
    · rw [ih hin]; rfl
    · have : i = n := by omega
      subst this
      cases (List.range i).foldlM (fun (out : List Byte) i => do
        let hi ← hexNibble (s.getD (2 * i) 0)
        let lo ← hexNibble (s.getD (2 * i + 1) 0)
        pure (out.set i ((hi <<< 4) ||| lo))) l with
      | none => rfl
      | some v =>
        rcases h with h | h
        · simp only [List.foldlM_cons, h, Option.bind_eq_bind, Option.bind_some, Option.bind_none]
        · cases h' : hexNibble (s.getD (2 * i) 0) <;>
            simp only [List.foldlM_cons, h, h', Option.bind_eq_bind, Option.bind_some, Option.bind_none]

theorem ext_getD {a b : List Byte} (hl : a.length = b.length)
    (h : ∀ i, i < a.length → a.getD i 0 = b.getD i 0) : a = b := by
  apply List.ext_getElem hl
  intro i h1 h2
  have := h i h1
  simpa [List.getD_eq_getElem?_getD, h1, h2] using this

theorem getD_flatMap_pair (d : List Byte) (f g : Byte → Byte) (i : Nat) (hi : i < d.length) :
    (d.flatMap (fun b => [f b, g b])).getD (2 * i) 0 = f (d.getD i 0) ∧
    (d.flatMap (fun b => [f b, g b])).getD (2 * i + 1) 0 = g (d.getD i 0) := by
  induction d generalizing i with
  | nil => simp at hi
  | cons b d ih =>
    cases i with
    | zero => simp
    | succ i =>
      have := ih i (by simpa using hi)
      simpa [List.flatMap_cons, Nat.mul_add] using this

theorem compareFrom_iff (a e : List Byte) (i : Nat) :
    compareFrom a e i = some () ↔ ∀ j, i ≤ j → j < 32 → a.getD j 0 = e.getD j 0 := by
  rw [compareFrom]
  by_cases h : i < 32
  · rw [if_pos h]
    by_cases hne : a.getD i 0 = e.getD i 0
    · rw [if_neg (not_not_intro hne), compareFrom_iff a e (i + 1)]
      constructor
      · intro H j h1 h2
        by_cases hj : j = i
        · subst hj; exact hne
        · exact H j (by omega) h2
      · intro H j h1 h2; exact H j (by omega) h2
    · rw [if_pos hne]
      simp only [reduceCtorEq, false_iff]
      intro H; exact hne (H i (by omega) h)
  · rw [if_neg h]
    simp only [true_iff]
    intro j h1 h2; omega
termination_by 32 - i

end Verif.Sha256
