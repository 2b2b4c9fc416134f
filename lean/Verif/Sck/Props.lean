import Verif.Sck.Model
import Verif.Bits.Lemmas
import Mathlib.Tactic.Linarith
import Mathlib.Tactic.Ring
import Mathlib.Tactic.FieldSimp
import Mathlib.Data.List.Induction
import Mathlib.Algebra.Order.Archimedean.Basic

/-
C55: the SCK file and its reader. C69: the records of a fitted Lagrange point and their evaluation.
-/
namespace Verif.Sck.Spec
open Verif.Bits

/-- The format, written from its description: magic, six 32-bit and two 64-bit little-endian numbers, sixteen reserved bytes, the numbers
of the records. -/
def encode (k : Kernel) (reserved : Bytes) : Bytes :=
  [83, 67, 75, 69, 82, 78, 48, 49] ++
    (natLE 4 k.header.ncoeff.toNat ++ (natLE 4 k.header.count.toNat ++ (natLE 4 k.header.center.toNat ++
      (natLE 4 k.header.target.toNat ++ (natLE 4 k.header.frame.toNat ++ (natLE 4 k.header.scale.toNat ++
        (natLE 8 k.header.validFrom.toNat ++ (natLE 8 k.header.validTo.toNat ++ (reserved ++
          k.records.flatMap (fun w => natLE 8 w.toNat))))))))))

/-- The declared number of numbers. -/
def declared (h : Header) : Nat := h.count.toNat * (2 + 3 * h.ncoeff.toNat)

/-- A fitted block: an interval around `mid`, and three lists of coefficients. -/
structure Block where
  mid : ℚ
  radius : ℚ
  cx : List ℚ
  cy : List ℚ
  cz : List ℚ

def Block.numbers (b : Block) : List ℚ := [b.mid, b.radius] ++ b.cx ++ b.cy ++ b.cz

def Block.Sized (n : Nat) (b : Block) : Prop := b.cx.length = n ∧ b.cy.length = n ∧ b.cz.length = n

/-- The instant lies in the block, bounds included. -/
def Block.Covers (b : Block) (s : ℚ) : Prop := |s - b.mid| ≤ b.radius

/-- Consecutive blocks tile the interval. -/
inductive Tiles : ℚ → List Block → ℚ → Prop
  | nil (a : ℚ) : Tiles a [] a
  | cons (a : ℚ) (b : Block) (bs : List Block) (z : ℚ) : 0 < b.radius → b.mid - b.radius = a →
      Tiles (b.mid + b.radius) bs z → Tiles a (b :: bs) z

end Verif.Sck.Spec

namespace Verif.Sck.Props
open Verif.Text Verif.Bits Verif.Sck.Spec

/-! ### Bytes and numbers -/

theorem natLE_leNat (b : Bytes) : natLE b.length (leNat b) = b := by
  induction b with
  | nil => rfl
  | cons x xs ih =>
    have hx := x.toNat_lt
    simp only [List.length_cons, natLE, leNat]
    have h1 : (x.toNat + 256 * leNat xs) % 256 = x.toNat := by omega
    have h2 : (x.toNat + 256 * leNat xs) / 256 = leNat xs := by omega
    rw [h1, h2, ih]
    simp

theorem ofNat32_natLE (x : BitVec 32) : BitVec.ofNat 32 (leNat (natLE 4 x.toNat)) = x := by
  simpa [bytesNat, natBytes] using ofNat_bytes32 true x

theorem ofNat64_natLE (x : BitVec 64) : BitVec.ofNat 64 (leNat (natLE 8 x.toNat)) = x := by
  simpa [bytesNat, natBytes] using ofNat_bytes64 true x

theorem natLE_ofNat32 {b : Bytes} (h : b.length = 4) : natLE 4 (BitVec.ofNat 32 (leNat b)).toNat = b := by
  have h1 := leNat_lt b
  rw [h] at h1
  rw [BitVec.toNat_ofNat, Nat.mod_eq_of_lt (by omega)]
  have := natLE_leNat b
  rwa [h] at this

theorem natLE_ofNat64 {b : Bytes} (h : b.length = 8) : natLE 8 (BitVec.ofNat 64 (leNat b)).toNat = b := by
  have h1 := leNat_lt b
  rw [h] at h1
  rw [BitVec.toNat_ofNat, Nat.mod_eq_of_lt (by omega)]
  have := natLE_leNat b
  rwa [h] at this

theorem eight {b : Bytes} (h : b.length = 8) : ∃ a c d e f g i j, b = [a, c, d, e, f, g, i, j] := by
  match b, h with
  | [a, c, d, e, f, g, i, j], _ => exact ⟨a, c, d, e, f, g, i, j, rfl⟩

theorem chunks_cons {w t : Bytes} (h : w.length = 8) : chunks (w ++ t) = BitVec.ofNat 64 (leNat w) :: chunks t := by
  obtain ⟨a, c, d, e, f, g, i, j, rfl⟩ := eight h
  rfl

theorem chunks_encode (ws : List (BitVec 64)) : chunks (ws.flatMap (fun w => natLE 8 w.toNat)) = ws := by
  induction ws with
  | nil => rfl
  | cons w ws ih => rw [List.flatMap_cons, chunks_cons (natLE_length 8 _), ih, ofNat64_natLE]

theorem encode_chunks (n : Nat) : ∀ p : Bytes, p.length = n * 8 →
    (chunks p).flatMap (fun w => natLE 8 w.toNat) = p ∧ (chunks p).length = n := by
  induction n with
  | zero =>
    intro p h
    have : p = [] := List.length_eq_zero_iff.mp (by omega)
    subst this
    exact ⟨rfl, rfl⟩
  | succ n ih =>
    intro p h
    have e : p = p.take 8 ++ p.drop 8 := (List.take_append_drop 8 p).symm
    have hl : (p.take 8).length = 8 := by rw [List.length_take]; omega
    obtain ⟨i1, i2⟩ := ih (p.drop 8) (by rw [List.length_drop]; omega)
    rw [e, chunks_cons hl]
    constructor
    · rw [List.flatMap_cons, i1, natLE_ofNat64 hl]
    · rw [List.length_cons, i2]

theorem flat_length (ws : List (BitVec 64)) : (ws.flatMap (fun w => natLE 8 w.toNat)).length = ws.length * 8 := by
  induction ws with
  | nil => rfl
  | cons w ws ih => rw [List.flatMap_cons, List.length_append, ih, natLE_length, List.length_cons]; omega

/-! ### The header -/

theorem drop_take {a b c : Bytes} {n m : Nat} (h1 : a.length = n) (h2 : b.length = m) :
    ((a ++ (b ++ c)).drop n).take m = b := by
  rw [← h1, List.drop_left, ← h2, List.take_left]

theorem encode_length (k : Kernel) {r : Bytes} (hr : r.length = 16) : (encode k r).length = 64 + k.records.length * 8 := by
  unfold encode
  simp only [List.length_append, natLE_length, flat_length, hr, List.length_cons, List.length_nil]
  omega

theorem header_encode (k : Kernel) (r : Bytes) : header (encode k r) = k.header := by
  obtain ⟨⟨n, c, ce, t, f, s, v, w⟩, rs⟩ := k
  unfold header u32At f64At encode
  simp only
  generalize hx : rs.flatMap (fun w => natLE 8 w.toNat) = x
  generalize ha : natLE 4 n.toNat = a
  generalize hb : natLE 4 c.toNat = b
  generalize hc : natLE 4 ce.toNat = d
  generalize hd : natLE 4 t.toNat = e
  generalize he : natLE 4 f.toNat = g
  generalize hf : natLE 4 s.toNat = i
  generalize hg : natLE 8 v.toNat = j
  generalize hh : natLE 8 w.toNat = l
  have la : a.length = 4 := by rw [← ha, natLE_length]
  have lb : b.length = 4 := by rw [← hb, natLE_length]
  have ld : d.length = 4 := by rw [← hc, natLE_length]
  have le : e.length = 4 := by rw [← hd, natLE_length]
  have lg : g.length = 4 := by rw [← he, natLE_length]
  have li : i.length = 4 := by rw [← hf, natLE_length]
  have lj : j.length = 8 := by rw [← hg, natLE_length]
  have ll : l.length = 8 := by rw [← hh, natLE_length]
  have lm : ([83, 67, 75, 69, 82, 78, 48, 49] : Bytes).length = 8 := rfl
  generalize ([83, 67, 75, 69, 82, 78, 48, 49] : Bytes) = m at lm
  have key : ∀ (p q : Bytes) (o n : Nat) (rest : Bytes), p.length = o → q.length = n →
      m ++ (a ++ (b ++ (d ++ (e ++ (g ++ (i ++ (j ++ (l ++ (r ++ x))))))))) = p ++ (q ++ rest) →
      ((m ++ (a ++ (b ++ (d ++ (e ++ (g ++ (i ++ (j ++ (l ++ (r ++ x)))))))))).drop o).take n = q := by
    intro p q o n rest h1 h2 h3
    rw [h3, drop_take h1 h2]
  congr 1
  · rw [key m a 8 4 _ lm la rfl, ← ha, ofNat32_natLE]
  · rw [key (m ++ a) b 12 4 _ (by simp [lm, la]) lb (by simp only [List.append_assoc]; rfl), ← hb, ofNat32_natLE]
  · rw [key (m ++ a ++ b) d 16 4 _ (by simp [lm, la, lb]) ld (by simp only [List.append_assoc]; rfl), ← hc, ofNat32_natLE]
  · rw [key (m ++ a ++ b ++ d) e 20 4 _ (by simp [lm, la, lb, ld]) le (by simp only [List.append_assoc]; rfl), ← hd, ofNat32_natLE]
  · rw [key (m ++ a ++ b ++ d ++ e) g 24 4 _ (by simp [lm, la, lb, ld, le]) lg (by simp only [List.append_assoc]; rfl), ← he,
      ofNat32_natLE]
  · rw [key (m ++ a ++ b ++ d ++ e ++ g) i 28 4 _ (by simp [lm, la, lb, ld, le, lg]) li (by simp only [List.append_assoc]; rfl), ← hf,
      ofNat32_natLE]
  · rw [key (m ++ a ++ b ++ d ++ e ++ g ++ i) j 32 8 _ (by simp [lm, la, lb, ld, le, lg, li]) lj
      (by simp only [List.append_assoc]; rfl), ← hg, ofNat64_natLE]
  · rw [key (m ++ a ++ b ++ d ++ e ++ g ++ i ++ j) l 40 8 _ (by simp [lm, la, lb, ld, le, lg, li, lj]) ll
      (by simp only [List.append_assoc]; rfl), ← hh, ofNat64_natLE]

theorem split_at (b : Bytes) (n m : Nat) : b.drop n = (b.drop n).take m ++ b.drop (n + m) := by
  conv_lhs => rw [← List.take_append_drop m (b.drop n)]
  rw [List.drop_drop]

theorem encode_header {b : Bytes} (hl : 64 ≤ b.length) (hm : b.take 8 = magic) {ws : List (BitVec 64)}
    (hw : ws.flatMap (fun w => natLE 8 w.toNat) = b.drop 64) : b = encode ⟨header b, ws⟩ ((b.drop 48).take 16) := by
  have len : ∀ o n, o + n ≤ 64 → ((b.drop o).take n).length = n := by
    intro o n h; rw [List.length_take, List.length_drop]; omega
  unfold encode header u32At f64At
  simp only
  rw [hw, natLE_ofNat32 (len 8 4 (by omega)), natLE_ofNat32 (len 12 4 (by omega)), natLE_ofNat32 (len 16 4 (by omega)),
    natLE_ofNat32 (len 20 4 (by omega)), natLE_ofNat32 (len 24 4 (by omega)), natLE_ofNat32 (len 28 4 (by omega)),
    natLE_ofNat64 (len 32 8 (by omega)), natLE_ofNat64 (len 40 8 (by omega))]
  rw [← split_at b 48 16, ← split_at b 40 8, ← split_at b 32 8, ← split_at b 28 4, ← split_at b 24 4, ← split_at b 20 4,
    ← split_at b 16 4, ← split_at b 12 4, ← split_at b 8 4]
  have : ([83, 67, 75, 69, 82, 78, 48, 49] : Bytes) = b.take 8 := hm.symm
  rw [this, List.take_append_drop]

/-! ### C55 -/

theorem parse_unfold (ck : Bool) {b : Bytes} (hl : 64 ≤ b.length) (hm : b.take 8 = magic) :
    parse ck b = if 2 ^ 64 ≤ declared (header b) then .err .overflow else
      (mulU ck (declared (header b)) 8).bind (fun size =>
        if (b.drop 64).length ≠ size then .err .payload
        else if 2 ^ 63 ≤ declared (header b) * 8 then .panic
        else .ok ⟨header b, chunks (b.drop 64)⟩) := by
  unfold parse declared
  rw [if_neg (by omega), if_neg (by simpa using hm)]
  simp only [Nat.mul_comm]

/-- C55: a byte string (shorter than 2⁶³ bytes, as every buffer is) parses to `k` exactly when it is the encoding of `k` and `k` holds the
declared number of numbers. -/
theorem parse_iff (ck : Bool) {b : Bytes} (hb : b.length < 2 ^ 63) (k : Kernel) :
    parse ck b = .ok k ↔ ∃ r : Bytes, r.length = 16 ∧ b = encode k r ∧ k.records.length = declared k.header := by
  constructor
  · intro h
    by_cases hl : 64 ≤ b.length
    · by_cases hm : b.take 8 = magic
      · rw [parse_unfold ck hl hm] at h
        split at h
        · exact absurd h (by simp)
        · rename_i hov
          unfold mulU at h
          split at h
          · rename_i hsm
            simp only [Res.bind] at h
            split at h
            · exact absurd h (by simp)
            · rename_i hp
              split at h
              · exact absurd h (by simp)
              · injection h with h
                push Not at hp
                obtain ⟨e1, e2⟩ := encode_chunks (declared (header b)) (b.drop 64) hp
                refine ⟨(b.drop 48).take 16, ?_, ?_, ?_⟩
                · rw [List.length_take, List.length_drop]; omega
                · rw [← h]; exact encode_header hl hm e1
                · rw [← h]; exact e2
          · split at h
            · exact absurd h (by simp [Res.bind])
            · simp only [Res.bind] at h
              split at h
              · exact absurd h (by simp)
              · rw [if_pos (by omega)] at h
                exact absurd h (by simp)
      · unfold parse at h
        rw [if_neg (by omega), if_pos hm] at h
        exact absurd h (by simp)
    · unfold parse at h
      rw [if_pos (by omega)] at h
      exact absurd h (by simp)
  · rintro ⟨r, hr, rfl, hk⟩
    have hlen := encode_length k hr
    rw [hlen] at hb
    have hm : (encode k r).take 8 = magic := rfl
    rw [parse_unfold ck (by omega) hm, header_encode, if_neg (by omega)]
    unfold mulU
    rw [if_pos (by omega)]
    have hd : (encode k r).drop 64 = k.records.flatMap (fun w => natLE 8 w.toNat) := by
      have e : encode k r = ([83, 67, 75, 69, 82, 78, 48, 49] ++
          natLE 4 k.header.ncoeff.toNat ++ natLE 4 k.header.count.toNat ++ natLE 4 k.header.center.toNat ++
          natLE 4 k.header.target.toNat ++ natLE 4 k.header.frame.toNat ++ natLE 4 k.header.scale.toNat ++
          natLE 8 k.header.validFrom.toNat ++ natLE 8 k.header.validTo.toNat ++ r) ++
          k.records.flatMap (fun w => natLE 8 w.toNat) := by
        unfold encode; simp only [List.append_assoc]
      rw [e]
      apply List.drop_left'
      simp only [List.length_append, natLE_length, hr, List.length_cons, List.length_nil]
    simp only [Res.bind]
    rw [hd, flat_length, if_neg (by rw [hk]; simp), if_neg (by omega), chunks_encode]

/-- C55: a kernel whose size agrees with its header is read back from its encoding, whatever the reserved bytes hold. -/
theorem parse_encode (ck : Bool) (k : Kernel) {r : Bytes} (hr : r.length = 16) (hk : k.records.length = declared k.header)
    (hs : k.records.length < 2 ^ 59) : parse ck (encode k r) = .ok k :=
  (parse_iff ck (by rw [encode_length k hr]; omega) k).mpr ⟨r, hr, rfl, hk⟩

/-- C55, the violation: when the parser panics. The declared size in bytes does not fit in 64 bits; without overflow checks the length of
the payload must also agree with the wrapped size. -/
theorem parse_panic_iff (ck : Bool) {b : Bytes} (hb : b.length < 2 ^ 63) :
    parse ck b = .panic ↔ 64 ≤ b.length ∧ b.take 8 = [83, 67, 75, 69, 82, 78, 48, 49] ∧ 2 ^ 61 ≤ declared (header b) ∧
      declared (header b) < 2 ^ 64 ∧ (ck = true ∨ b.length - 64 = declared (header b) * 8 % 2 ^ 64) := by
  by_cases hl : 64 ≤ b.length
  · by_cases hm : b.take 8 = magic
    · rw [parse_unfold ck hl hm]
      have hm' : b.take 8 = [83, 67, 75, 69, 82, 78, 48, 49] := hm
      have hd : (b.drop 64).length = b.length - 64 := List.length_drop
      by_cases hov : 2 ^ 64 ≤ declared (header b)
      · rw [if_pos hov]
        constructor
        · intro h; exact absurd h (by simp)
        · rintro ⟨-, -, -, h, -⟩; omega
      · rw [if_neg hov]
        unfold mulU
        by_cases hs : declared (header b) * 8 < 2 ^ 64
        · rw [if_pos hs]
          simp only [Res.bind, hd]
          constructor
          · intro h
            exfalso
            split at h
            · exact absurd h (by simp)
            · rename_i hp
              rw [if_neg (by omega)] at h
              exact absurd h (by simp)
          · rintro ⟨-, -, h, -, -⟩; omega
        · rw [if_neg hs]
          cases ck
          · simp only [Bool.false_eq_true, if_false, Res.bind, hd, false_or]
            constructor
            · intro h
              split at h
              · exact absurd h (by simp)
              · rename_i hp
                exact ⟨hl, hm', by omega, by omega, by omega⟩
            · rintro ⟨-, -, -, -, h⟩
              rw [if_neg (by omega), if_pos (by omega)]
          · simp only [if_true, Res.bind, true_or, and_true, true_iff]
            exact ⟨hl, hm', by omega, by omega⟩
    · constructor
      · intro h
        unfold parse at h
        rw [if_neg (by omega), if_pos hm] at h
        exact absurd h (by simp)
      · rintro ⟨-, h, -⟩; exact absurd h hm
  · constructor
    · intro h
      unfold parse at h
      rw [if_pos (by omega)] at h
      exact absurd h (by simp)
    · rintro ⟨h, -⟩; omega

/-- A bare header that declares 2⁶¹ numbers: 2863311530 coefficients, 2²⁸ records. -/
def bomb : Bytes := encode ⟨⟨2863311530#32, 268435456#32, 0#32, 1#32, 0#32, 0#32, 0#64, 0#64⟩, []⟩ (List.replicate 16 0)

/-- C55, the violation: a file of 64 bytes that stops the program, with overflow checks and without. -/
theorem small_file_panics : bomb.length = 64 ∧ ∀ ck, parse ck bomb = .panic := by
  have hl : bomb.length = 64 := by decide +kernel
  refine ⟨hl, fun ck => ?_⟩
  have hh : header bomb = ⟨2863311530#32, 268435456#32, 0#32, 1#32, 0#32, 0#32, 0#64, 0#64⟩ := header_encode _ _
  have hd : declared (header bomb) = 2 ^ 61 := by rw [hh]; rfl
  rw [parse_panic_iff ck (by rw [hl]; norm_num), hd, hl]
  exact ⟨le_refl _, rfl, le_refl _, by norm_num, Or.inr (by norm_num)⟩

/-- C55: every other byte string is accepted or refused. -/
theorem parse_total_partial (ck : Bool) {b : Bytes} (hb : b.length < 2 ^ 63) (hd : declared (header b) < 2 ^ 61) :
    parse ck b ≠ .panic := by
  intro h
  have := ((parse_panic_iff ck hb).mp h).2.2.1
  omega

/-- A kernel of one record with one coefficient per coordinate. -/
def sample : Kernel := ⟨⟨1#32, 1#32, 0#32, 3#32, 0#32, 0#32, 5#64, 6#64⟩, [1#64, 2#64, 3#64, 4#64, 5#64]⟩

example : sample.records.length = declared sample.header ∧ (encode sample (List.replicate 16 7)).length = 104 := by decide +kernel

/-! ### C69: the record search -/

theorem covers_iff (b : Block) (s : ℚ) : b.Covers s ↔ b.mid - b.radius ≤ s ∧ s ≤ b.mid + b.radius := by
  unfold Block.Covers
  rw [abs_le]
  constructor <;> rintro ⟨h1, h2⟩ <;> constructor <;> linarith

theorem numbers_length {n : Nat} {b : Block} (h : b.Sized n) : b.numbers.length = 2 + 3 * n := by
  obtain ⟨h1, h2, h3⟩ := h
  simp only [Block.numbers, List.length_append, List.length_cons, List.length_nil, h1, h2, h3]
  omega

theorem flatMap_length {n : Nat} (bs : List Block) (h : ∀ b ∈ bs, b.Sized n) :
    (bs.flatMap Block.numbers).length = bs.length * (2 + 3 * n) := by
  induction bs with
  | nil => simp
  | cons b bs ih =>
    rw [List.flatMap_cons, List.length_append, numbers_length (h b (by simp)), ih (fun x hx => h x (by simp [hx])), List.length_cons]
    ring

theorem search_cons (cheby : List ℚ → ℚ → ℚ) (n : Nat) (s : ℚ) (fuel : Nat) (f l : Option ℚ) (b : Block) (hb : b.Sized n)
    (rest : List ℚ) :
    search cheby n s (fuel + 1) f l (b.numbers ++ rest) =
      if b.mid - b.radius ≤ s ∧ s ≤ b.mid + b.radius then
        (if b.radius = 0 then .nan else
          .pos (cheby b.cx ((s - b.mid) / b.radius)) (cheby b.cy ((s - b.mid) / b.radius)) (cheby b.cz ((s - b.mid) / b.radius)))
      else search cheby n s fuel (optMin f (b.mid - b.radius)) (optMax l (b.mid + b.radius)) rest := by
  obtain ⟨h1, h2, h3⟩ := hb
  have e : b.numbers ++ rest = b.mid :: b.radius :: (b.cx ++ b.cy ++ b.cz ++ rest) := by
    simp [Block.numbers, List.append_assoc]
  have hl : (b.cx ++ b.cy ++ b.cz).length = 3 * n := by simp only [List.length_append, h1, h2, h3]; omega
  rw [e, search]
  rw [if_neg (by rw [List.length_append, hl]; omega), List.take_left' hl, List.drop_left' hl]
  split
  · unfold evalRecord
    have t1 : (b.cx ++ b.cy ++ b.cz).take n = b.cx := by
      rw [List.append_assoc]; exact List.take_left' h1
    have t2 : ((b.cx ++ b.cy ++ b.cz).drop n).take n = b.cy := by
      rw [List.append_assoc, List.drop_left' h1]; exact List.take_left' h2
    have t3 : ((b.cx ++ b.cy ++ b.cz).drop (2 * n)).take n = b.cz := by
      rw [List.drop_left' (by simp only [List.length_append, h1, h2]; omega)]
      exact List.take_of_length_le (by omega)
    simp only [t1, t2, t3]
  · rfl

theorem search_skip (cheby : List ℚ → ℚ → ℚ) (n : Nat) (s : ℚ) : ∀ (pre : List Block) (fuel : Nat) (f l : Option ℚ) (rest : List ℚ),
    (∀ b ∈ pre, b.Sized n ∧ ¬ b.Covers s) →
    ∃ f' l', search cheby n s (fuel + pre.length) f l (pre.flatMap Block.numbers ++ rest) = search cheby n s fuel f' l' rest ∧
      f' = pre.foldl (fun a b => optMin a (b.mid - b.radius)) f ∧ l' = pre.foldl (fun a b => optMax a (b.mid + b.radius)) l := by
  intro pre
  induction pre with
  | nil => intro fuel f l rest _; exact ⟨f, l, by simp, rfl, rfl⟩
  | cons b pre ih =>
    intro fuel f l rest h
    obtain ⟨hs, hc⟩ := h b (by simp)
    obtain ⟨f', l', e, h1, h2⟩ := ih fuel (optMin f (b.mid - b.radius)) (optMax l (b.mid + b.radius)) rest
      (fun x hx => h x (by simp [hx]))
    refine ⟨f', l', ?_, ?_, ?_⟩
    · rw [List.length_cons, ← Nat.add_assoc, List.flatMap_cons, List.append_assoc, search_cons _ _ _ _ _ _ _ hs,
        if_neg (by rw [← covers_iff]; exact hc), e]
    · rw [h1]; rfl
    · rw [h2]; rfl

theorem evaluate_eq {cheby : List ℚ → ℚ → ℚ} (range : ℚ × ℚ) {n : Nat} (hn : n ≠ 0) (s : ℚ) {bs : List Block} (hne : bs ≠ [])
    (h : ∀ b ∈ bs, b.Sized n) : ∃ extra, evaluate cheby range n s (bs.flatMap Block.numbers) =
      search cheby n s (extra + 1 + bs.length) none none (bs.flatMap Block.numbers) := by
  have hl := flatMap_length bs h
  have hp : 0 < bs.length := List.length_pos_iff.mpr hne
  have hbig : bs.length * 2 ≤ bs.length * (2 + 3 * n) := Nat.mul_le_mul_left _ (by omega)
  refine ⟨bs.length * (2 + 3 * n) - 1 - bs.length, ?_⟩
  unfold evaluate
  rw [if_neg]
  · rw [hl]; congr 1; omega
  · rintro (h | h | h)
    · rw [h] at hl; simp only [List.length_nil] at hl; omega
    · exact hn h
    · exact h (by rw [hl]; exact Nat.mul_mod_left _ _)

/-- C69: the position at an instant is computed from the first block that covers it, at the instant scaled to `[-1, 1]`. -/
theorem evaluate_first {cheby : List ℚ → ℚ → ℚ} (range : ℚ × ℚ) {n : Nat} (hn : n ≠ 0) (s : ℚ) {pre post : List Block} {b : Block}
    (h : ∀ x ∈ pre ++ b :: post, x.Sized n) (hpre : ∀ x ∈ pre, ¬ x.Covers s) (hb : b.Covers s) (hr : b.radius ≠ 0) :
    ∃ tau : ℚ, |tau| ≤ 1 ∧ b.mid + tau * b.radius = s ∧
      evaluate cheby range n s ((pre ++ b :: post).flatMap Block.numbers) = .pos (cheby b.cx tau) (cheby b.cy tau) (cheby b.cz tau) := by
  obtain ⟨extra, e⟩ := evaluate_eq (cheby := cheby) range hn s (by simp) h
  have hpos : 0 < b.radius := lt_of_le_of_ne (le_trans (abs_nonneg _) hb) (Ne.symm hr)
  refine ⟨(s - b.mid) / b.radius, ?_, ?_, ?_⟩
  · rw [abs_div, abs_of_pos hpos, div_le_one hpos]; exact hb
  · field_simp; ring
  · rw [e, List.flatMap_append, List.length_append]
    have : extra + 1 + (pre.length + (b :: post).length) = (extra + 1 + post.length + 1) + pre.length := by
      simp only [List.length_cons]; omega
    obtain ⟨f', l', e', -, -⟩ := search_skip cheby n s pre (extra + 1 + post.length + 1) none none ((b :: post).flatMap Block.numbers)
      (fun x hx => ⟨h x (by simp [hx]), hpre x hx⟩)
    rw [this, e', List.flatMap_cons, search_cons _ _ _ _ _ _ _ (h b (by simp)), if_pos ((covers_iff b s).mp hb), if_neg hr]

theorem foldl_min (bs : List Block) : ∀ a : ℚ, ∃ m, bs.foldl (fun a b => optMin a (b.mid - b.radius)) (some a) = some m ∧ m ≤ a ∧
    (∀ b ∈ bs, m ≤ b.mid - b.radius) ∧ (m = a ∨ ∃ b ∈ bs, m = b.mid - b.radius) := by
  induction bs with
  | nil => intro a; exact ⟨a, rfl, le_refl _, by simp, Or.inl rfl⟩
  | cons b bs ih =>
    intro a
    obtain ⟨m, h1, h2, h3, h4⟩ := ih (min a (b.mid - b.radius))
    refine ⟨m, h1, le_trans h2 (min_le_left _ _), ?_, ?_⟩
    · intro x hx
      rcases List.mem_cons.mp hx with rfl | hx
      · exact le_trans h2 (min_le_right _ _)
      · exact h3 x hx
    · rcases h4 with h4 | ⟨x, hx, h4⟩
      · rcases min_choice a (b.mid - b.radius) with h | h
        · left; rw [h4, h]
        · right; exact ⟨b, by simp, by rw [h4, h]⟩
      · right; exact ⟨x, by simp [hx], h4⟩

theorem foldl_max (bs : List Block) : ∀ a : ℚ, ∃ m, bs.foldl (fun a b => optMax a (b.mid + b.radius)) (some a) = some m ∧ a ≤ m ∧
    (∀ b ∈ bs, b.mid + b.radius ≤ m) ∧ (m = a ∨ ∃ b ∈ bs, m = b.mid + b.radius) := by
  induction bs with
  | nil => intro a; exact ⟨a, rfl, le_refl _, by simp, Or.inl rfl⟩
  | cons b bs ih =>
    intro a
    obtain ⟨m, h1, h2, h3, h4⟩ := ih (max a (b.mid + b.radius))
    refine ⟨m, h1, le_trans (le_max_left _ _) h2, ?_, ?_⟩
    · intro x hx
      rcases List.mem_cons.mp hx with rfl | hx
      · exact le_trans (le_max_right _ _) h2
      · exact h3 x hx
    · rcases h4 with h4 | ⟨x, hx, h4⟩
      · rcases max_choice a (b.mid + b.radius) with h | h
        · left; rw [h4, h]
        · right; exact ⟨b, by simp, by rw [h4, h]⟩
      · right; exact ⟨x, by simp [hx], h4⟩

/-- C69: an instant that no block covers is refused, and the refusal names the earliest start and the latest end of the blocks. -/
theorem evaluate_out {cheby : List ℚ → ℚ → ℚ} (range : ℚ × ℚ) {n : Nat} (hn : n ≠ 0) (s : ℚ) {bs : List Block} (hne : bs ≠ [])
    (h : ∀ x ∈ bs, x.Sized n) (hc : ∀ x ∈ bs, ¬ x.Covers s) :
    ∃ lo hi, evaluate cheby range n s (bs.flatMap Block.numbers) = .out (some lo) (some hi) ∧
      (∀ b ∈ bs, lo ≤ b.mid - b.radius ∧ b.mid + b.radius ≤ hi) ∧ (∃ b ∈ bs, lo = b.mid - b.radius) ∧ (∃ b ∈ bs, hi = b.mid + b.radius) := by
  obtain ⟨extra, e⟩ := evaluate_eq (cheby := cheby) range hn s hne h
  obtain ⟨f', l', e', h1, h2⟩ := search_skip cheby n s bs (extra + 1) none none [] (fun x hx => ⟨h x hx, hc x hx⟩)
  rw [List.append_nil] at e'
  obtain ⟨b, t, rfl⟩ := List.exists_cons_of_ne_nil hne
  obtain ⟨lo, m1, m2, m3, m4⟩ := foldl_min t (b.mid - b.radius)
  obtain ⟨hi, n1, n2, n3, n4⟩ := foldl_max t (b.mid + b.radius)
  refine ⟨lo, hi, ?_, ?_, ?_, ?_⟩
  · rw [e, e', h1, h2, List.foldl_cons, List.foldl_cons]
    show search cheby n s (extra + 1) (t.foldl _ (some (b.mid - b.radius))) (t.foldl _ (some (b.mid + b.radius))) [] = _
    rw [m1, n1]
    rfl
  · intro x hx
    rcases List.mem_cons.mp hx with rfl | hx
    · exact ⟨m2, n2⟩
    · exact ⟨m3 x hx, n3 x hx⟩
  · rcases m4 with m4 | ⟨x, hx, m4⟩
    · exact ⟨b, by simp, m4⟩
    · exact ⟨x, by simp [hx], m4⟩
  · rcases n4 with n4 | ⟨x, hx, n4⟩
    · exact ⟨b, by simp, n4⟩
    · exact ⟨x, by simp [hx], n4⟩

/-- C69: a record list of the wrong length, or without coefficients, is refused. -/
theorem evaluate_malformed (cheby : List ℚ → ℚ → ℚ) (range : ℚ × ℚ) (n : Nat) (s : ℚ) (rs : List ℚ)
    (h : rs = [] ∨ n = 0 ∨ ¬ (2 + 3 * n) ∣ rs.length) : evaluate cheby range n s rs = .out (some range.1) (some range.2) := by
  unfold evaluate
  rw [if_pos]
  rcases h with h | h | h
  · exact Or.inl h
  · exact Or.inr (Or.inl h)
  · exact Or.inr (Or.inr (fun e => h (Nat.dvd_of_mod_eq_zero e)))

/-! ### C69: the blocks of a fit -/

theorem tiles_le {a z : ℚ} {bs : List Block} (h : Tiles a bs z) : a ≤ z := by
  induction h with
  | nil => exact le_refl _
  | cons a b bs z hr ha _ ih => linarith

theorem tiles_cover {a z : ℚ} {bs : List Block} (h : Tiles a bs z) (hne : bs ≠ []) (s : ℚ) :
    (∃ b ∈ bs, b.Covers s) ↔ a ≤ s ∧ s ≤ z := by
  induction h with
  | nil => exact absurd rfl hne
  | cons a b bs z hr ha ht ih =>
    by_cases hb : bs = []
    · subst hb
      cases ht
      simp only [List.mem_singleton, exists_eq_left, covers_iff]
      rw [ha]
    · have hle := tiles_le ht
      constructor
      · rintro ⟨x, hx, hc⟩
        rcases List.mem_cons.mp hx with rfl | hx
        · rw [covers_iff] at hc; constructor <;> linarith [hc.1, hc.2]
        · have := (ih hb).mp ⟨x, hx, hc⟩
          constructor <;> linarith [this.1, this.2]
      · rintro ⟨h1, h2⟩
        by_cases hs : s ≤ b.mid + b.radius
        · exact ⟨b, by simp, (covers_iff b s).mpr ⟨by linarith, hs⟩⟩
        · obtain ⟨x, hx, hc⟩ := (ih hb).mpr ⟨by linarith, h2⟩
          exact ⟨x, by simp [hx], hc⟩

theorem fitLoop_tiles (sample : ℚ → ℚ → List ℚ × List ℚ × List ℚ) {n : Nat}
    (hs : ∀ m r, (sample m r).1.length = n ∧ (sample m r).2.1.length = n ∧ (sample m r).2.2.length = n) {to_ block : ℚ}
    (hblock : 0 < block) : ∀ (fuel : Nat) (start : ℚ), start ≤ to_ → to_ - start ≤ fuel * block →
    ∃ bs : List Block, fitLoop (· + ·) sample to_ block fuel start = some (bs.flatMap Block.numbers) ∧ Tiles start bs to_ ∧
      ∀ b ∈ bs, b.Sized n ∧ 2 * b.radius ≤ block ∧ (b.cx, b.cy, b.cz) = sample b.mid b.radius := by
  intro fuel
  induction fuel with
  | zero =>
    intro start hle hf
    have : start = to_ := by simp at hf; linarith
    subst this
    refine ⟨[], ?_, Tiles.nil _, by simp⟩
    rw [fitLoop, if_neg (lt_irrefl _)]
    rfl
  | succ fuel ih =>
    intro start hle hf
    by_cases hlt : start < to_
    · rw [fitLoop, if_pos hlt]
      simp only
      generalize hstop : min (start + block) to_ = stop
      have h1 : start < stop := by rw [← hstop]; exact lt_min (by linarith) hlt
      have h2 : stop ≤ to_ := by rw [← hstop]; exact min_le_right _ _
      have h3 : stop ≤ start + block := by rw [← hstop]; exact min_le_left _ _
      have h4 : to_ - stop ≤ fuel * block := by
        rcases min_choice (start + block) to_ with h | h
        · rw [h] at hstop
          push_cast at hf
          rw [← hstop]; linarith
        · rw [h] at hstop
          rw [← hstop, sub_self]
          positivity
      obtain ⟨bs, e, ht, hall⟩ := ih stop h2 h4
      obtain ⟨s1, s2, s3⟩ := hs (1 / 2 * (start + stop)) (1 / 2 * (stop - start))
      refine ⟨⟨1 / 2 * (start + stop), 1 / 2 * (stop - start), (sample (1 / 2 * (start + stop)) (1 / 2 * (stop - start))).1,
        (sample (1 / 2 * (start + stop)) (1 / 2 * (stop - start))).2.1,
        (sample (1 / 2 * (start + stop)) (1 / 2 * (stop - start))).2.2⟩ :: bs, ?_, ?_, ?_⟩
      · rw [e, List.flatMap_cons]
        simp [Block.numbers, List.append_assoc]
      · refine Tiles.cons _ _ _ _ ?_ ?_ ?_
        · show 0 < 1 / 2 * (stop - start); linarith
        · show 1 / 2 * (start + stop) - 1 / 2 * (stop - start) = start; ring
        · have : 1 / 2 * (start + stop) + 1 / 2 * (stop - start) = stop := by ring
          show Tiles (1 / 2 * (start + stop) + 1 / 2 * (stop - start)) bs to_
          rw [this]; exact ht
      · intro b hb
        rcases List.mem_cons.mp hb with rfl | hb
        · refine ⟨⟨s1, s2, s3⟩, ?_, rfl⟩
          show 2 * (1 / 2 * (stop - start)) ≤ block
          linarith
        · exact hall b hb
    · have : start = to_ := le_antisymm hle (not_lt.mp hlt)
      subst this
      refine ⟨[], ?_, Tiles.nil _, by simp⟩
      rw [fitLoop, if_neg (lt_irrefl _)]
      rfl

/-- C69: in exact arithmetic the fit of an accepted configuration ends, and its records answer exactly the instants of the
configured interval. -/
theorem fit_covers (cheby : List ℚ → ℚ → ℚ) (range : ℚ × ℚ) (sample : ℚ → ℚ → List ℚ × List ℚ × List ℚ) {n : Nat} (hn : n ≠ 0)
    (hs : ∀ m r, (sample m r).1.length = n ∧ (sample m r).2.1.length = n ∧ (sample m r).2.2.length = n)
    {from_ to_ block step : ℚ} (hc : configOk from_ to_ block step = true) :
    ∃ fuel records, fitLoop (· + ·) sample to_ block fuel from_ = some records ∧
      (∀ s, (∃ x y z, evaluate cheby range n s records = .pos x y z) ↔ from_ ≤ s ∧ s ≤ to_) ∧
      (∀ s, ¬ (from_ ≤ s ∧ s ≤ to_) → evaluate cheby range n s records = .out (some from_) (some to_)) := by
  simp only [configOk, Bool.and_eq_true, decide_eq_true_eq] at hc
  obtain ⟨⟨hft, hb⟩, -⟩ := hc
  obtain ⟨fuel, hfuel⟩ := exists_nat_ge ((to_ - from_) / block)
  obtain ⟨bs, e, ht, hall⟩ := fitLoop_tiles sample hs hb fuel from_ (le_of_lt hft) (by rwa [div_le_iff₀ hb] at hfuel)
  have hne : bs ≠ [] := by rintro rfl; cases ht; exact absurd hft (lt_irrefl _)
  have hsz : ∀ x ∈ bs, x.Sized n := fun x hx => (hall x hx).1
  have hpos : ∀ {a z : ℚ} {l : List Block}, Tiles a l z → ∀ b ∈ l, 0 < b.radius := by
    intro a z l h
    induction h with
    | nil => simp
    | cons a b bs z hr _ _ ih =>
      intro x hx
      rcases List.mem_cons.mp hx with rfl | hx
      · exact hr
      · exact ih x hx
  have hin : ∀ s, from_ ≤ s ∧ s ≤ to_ → ∃ x y z, evaluate cheby range n s (bs.flatMap Block.numbers) = .pos x y z := by
    intro s hss
    have hex := (tiles_cover ht hne s).mpr hss
    have : ∀ l : List Block, (∃ b ∈ l, b.Covers s) → ∃ pre b post, l = pre ++ b :: post ∧ b.Covers s ∧ ∀ x ∈ pre, ¬ x.Covers s := by
      intro l
      induction l with
      | nil => simp
      | cons c l ih =>
        rintro ⟨b, hb, hbc⟩
        by_cases hcc : c.Covers s
        · exact ⟨[], c, l, rfl, hcc, by simp⟩
        · rcases List.mem_cons.mp hb with rfl | hb
          · exact absurd hbc hcc
          · obtain ⟨pre, d, post, e, hd, hp⟩ := ih ⟨b, hb, hbc⟩
            refine ⟨c :: pre, d, post, by rw [e]; rfl, hd, ?_⟩
            intro x hx
            rcases List.mem_cons.mp hx with rfl | hx
            · exact hcc
            · exact hp x hx
    obtain ⟨pre, b, post, rfl, hbc, hp⟩ := this bs hex
    obtain ⟨tau, -, -, he⟩ := evaluate_first (cheby := cheby) range hn s hsz hp hbc (ne_of_gt (hpos ht b (by simp)))
    exact ⟨_, _, _, he⟩
  have hout : ∀ s, ¬ (from_ ≤ s ∧ s ≤ to_) → evaluate cheby range n s (bs.flatMap Block.numbers) = .out (some from_) (some to_) := by
    intro s hss
    have hno : ∀ x ∈ bs, ¬ x.Covers s := fun x hx hxc => hss ((tiles_cover ht hne s).mp ⟨x, hx, hxc⟩)
    obtain ⟨lo, hi, e1, e2, ⟨b1, m1, e3⟩, ⟨b2, m2, e4⟩⟩ := evaluate_out (cheby := cheby) range hn s hne hsz hno
    have edge : ∀ b ∈ bs, from_ ≤ b.mid - b.radius ∧ b.mid + b.radius ≤ to_ := by
      intro b hb
      have hr := hpos ht b hb
      have c1 := ((tiles_cover ht hne (b.mid - b.radius)).mp ⟨b, hb, (covers_iff _ _).mpr ⟨le_refl _, by linarith⟩⟩).1
      have c2 := ((tiles_cover ht hne (b.mid + b.radius)).mp ⟨b, hb, (covers_iff _ _).mpr ⟨by linarith, le_refl _⟩⟩).2
      exact ⟨c1, c2⟩
    obtain ⟨a1, ha1, ha2⟩ := (tiles_cover ht hne from_).mpr ⟨le_refl _, le_of_lt hft⟩
    obtain ⟨z1, hz1, hz2⟩ := (tiles_cover ht hne to_).mpr ⟨le_of_lt hft, le_refl _⟩
    rw [covers_iff] at ha2 hz2
    have l1 : lo = from_ := le_antisymm (le_trans (e2 a1 ha1).1 ha2.1) (by rw [e3]; exact (edge b1 m1).1)
    have l2 : hi = to_ := le_antisymm (by rw [e4]; exact (edge b2 m2).2) (le_trans hz2.2 (e2 z1 hz1).2)
    rw [e1, l1, l2]
  refine ⟨fuel, _, e, fun s => ⟨?_, hin s⟩, hout⟩
  rintro ⟨x, y, z, h⟩
  by_contra hss
  rw [hout s hss] at h
  exact absurd h (by simp)

/-- C69, the violation: a block so short that the floating-point addition does not move the start makes the fit run for ever, although
the configuration is accepted. -/
theorem short_block_never_ends (add : ℚ → ℚ → ℚ) (sample : ℚ → ℚ → List ℚ × List ℚ × List ℚ) {from_ to_ block : ℚ} (h : from_ < to_)
    (ha : add from_ block = from_) : ∀ fuel, fitLoop add sample to_ block fuel from_ = none := by
  intro fuel
  induction fuel with
  | zero => rw [fitLoop, if_pos h]
  | succ fuel ih =>
    rw [fitLoop, if_pos h]
    simp only
    rw [ha, min_eq_left (le_of_lt h), ih]
    rfl

/-- An addition that rounds to whole numbers loses a block of a quarter; the configuration is accepted. -/
example : configOk 0 10 (1 / 4) 1 = true ∧ ((fun a b : ℚ => ((round (a + b) : ℤ) : ℚ)) 0 (1 / 4)) = 0 := by
  constructor <;> decide +kernel

/-- Two blocks of five seconds, and the records of a fit on `[0, 7]`. -/
example : fitLoop (· + ·) (fun m r => ([m], [r], [1])) 7 5 3 0 = some [5 / 2, 5 / 2, 5 / 2, 5 / 2, 1, 6, 1, 6, 1, 1] ∧
    evaluate (fun c t => c.headD 0 + t) (0, 7) 1 6 [5 / 2, 5 / 2, 5 / 2, 5 / 2, 1, 6, 1, 6, 1, 1] = .pos 6 1 1 ∧
    evaluate (fun c t => c.headD 0 + t) (0, 7) 1 8 [5 / 2, 5 / 2, 5 / 2, 5 / 2, 1, 6, 1, 6, 1, 1] = .out (some 0) (some 7) := by
  refine ⟨by decide +kernel, by decide +kernel, by decide +kernel⟩

/-- C69, the violation: a record of radius zero gives a position that is not a number. -/
theorem zero_radius_nan (cheby : List ℚ → ℚ → ℚ) (range : ℚ × ℚ) (m x y z : ℚ) :
    evaluate cheby range 1 m [m, 0, x, y, z] = .nan := by
  simp [evaluate, search, evalRecord]

end Verif.Sck.Props
