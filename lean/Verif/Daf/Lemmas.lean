import Verif.Daf.Model
import Verif.Daf.Spec
import Verif.Bits.Lemmas

namespace Verif.Daf
open Verif.Text Verif.Bits Spec

theorem Spec.At.left {data a b : Bytes} {off : Nat} (h : At data off (a ++ b)) : At data off a := by
  obtain ⟨pre, post, h1, h2⟩ := h
  exact ⟨pre, b ++ post, by rw [h1]; simp, h2⟩

theorem Spec.At.right {data a b : Bytes} {off : Nat} (h : At data off (a ++ b)) :
    At data (off + a.length) b := by
  obtain ⟨pre, post, h1, h2⟩ := h
  exact ⟨pre ++ a, post, by rw [h1]; simp, by simp [h2]⟩

theorem Spec.At.le {data a : Bytes} {off : Nat} (h : At data off a) : off + a.length ≤ data.length := by
  obtain ⟨pre, post, h1, h2⟩ := h
  rw [h1]; simp; omega

theorem Spec.At.slice {data a : Bytes} {off : Nat} (h : At data off a) :
    sliceB data off a.length = some a := by
  obtain ⟨pre, post, h1, h2⟩ := h
  rw [← h2]; exact sliceB_holds h1

@[simp] theorem f64b_length (le : Bool) (x : BitVec 64) : (f64b le x).length = 8 := by
  simp [f64b]

@[simp] theorem i32b_length (le : Bool) (x : BitVec 32) : (i32b le x).length = 4 := by
  simp [i32b]

theorem readF64_at {le : Bool} {data : Bytes} {off : Nat} {x : BitVec 64}
    (h : At data off (f64b le x)) : readF64 le data off = .ok x := by
  have := h.slice
  rw [f64b_length] at this
  unfold readF64
  rw [this]
  simp only [Option.map_some, Res.orPanic]
  rw [f64b, ofNat_bytes64]

theorem readI32_at {le : Bool} {data : Bytes} {off : Nat} {x : BitVec 32}
    (h : At data off (i32b le x)) : readI32 le data off = .ok x := by
  have := h.slice
  rw [i32b_length] at this
  unfold readI32
  rw [this]
  simp only [Option.map_some, Res.orPanic]
  rw [i32b, ofNat_bytes32]

theorem readMany_at {α : Type} {read : Nat → Res Err α} {enc : α → Bytes} {data : Bytes}
    {size : Nat} (hr : ∀ off x, At data off (enc x) → read off = .ok x)
    (hl : ∀ x, (enc x).length = size) (base : Nat) (xs : List α) :
    ∀ j, At data (base + j * size) (xs.flatMap enc) → readMany read base size xs.length j = .ok xs := by
  induction xs with
  | nil => intro j _; rfl
  | cons x xs ih =>
    intro j h
    rw [List.flatMap_cons] at h
    have h1 := hr _ _ h.left
    have h2 := ih (j + 1) (by
      have := h.right
      rw [hl] at this
      convert this using 1
      ring)
    simp only [List.length_cons, readMany, h1, h2, Res.bind_ok]

theorem flatMap_length {α : Type} {enc : α → Bytes} {size : Nat} (hl : ∀ x, (enc x).length = size)
    (xs : List α) : (xs.flatMap enc).length = xs.length * size := by
  induction xs with
  | nil => simp
  | cons x xs ih => simp [hl, ih, Nat.add_mul]; omega

theorem readRaw_at {le : Bool} {data : Bytes} {nd ni off : Nat} {e : Entry}
    (hd : e.doubles.length = nd) (hi : e.ints.length = ni) (h : At data off (encEntry le e)) :
    readRaw le data nd ni off = .ok ⟨e.doubles, e.ints⟩ := by
  unfold encEntry at h
  have h1 := readMany_at (read := readF64 le data) (enc := f64b le) (size := 8)
    (fun _ _ h => readF64_at h) (fun _ => f64b_length _ _) off e.doubles 0
    (by simpa using h.left.left)
  have h2 := readMany_at (read := readI32 le data) (enc := i32b le) (size := 4)
    (fun _ _ h => readI32_at h) (fun _ => i32b_length _ _) (off + nd * 8) e.ints 0
    (by
      have := h.left.right
      rw [flatMap_length (fun x => f64b_length le x)] at this
      rw [← hd]
      simpa using this)
  unfold readRaw
  rw [← hd, ← hi]
  rw [← hd] at h2
  simp only [h1, h2, Res.bind_ok]

theorem encEntry_length {le : Bool} {nd ni : Nat} {e : Entry} (hd : e.doubles.length = nd)
    (hi : e.ints.length = ni) : (encEntry le e).length = summarySize nd ni * 8 := by
  unfold encEntry summarySize
  simp only [List.length_append, flatMap_length (fun x => f64b_length le x),
    flatMap_length (fun x => i32b_length le x), List.length_replicate, hd, hi]
  omega

/-- The bytes of one SPK summary are read as its fields. -/
def spkOf (e : Entry) : Summary :=
  let d := fun i => e.doubles.getD i 0
  let n := fun i => e.ints.getD i 0
  ⟨d 0, d 1, (n 0).toInt, (n 1).toInt, (n 2).toInt, (n 3).toInt, iToUsize (n 4).toInt,
    iToUsize (n 5).toInt⟩

theorem readSpk_at {le : Bool} {data : Bytes} {off : Nat} {e : Entry}
    (hd : e.doubles.length = 2) (hi : e.ints.length = 6) (h : At data off (encEntry le e)) :
    readSpk le data 2 off = .ok (spkOf e) := by
  obtain ⟨ds, is⟩ := e
  match ds, hd with
  | [s, t], _ =>
    match is, hi with
    | [a, b, c, d, x, y], _ =>
      unfold encEntry at h
      simp only [List.flatMap_cons, List.flatMap_nil, List.append_nil, List.append_assoc] at h
      have h0 := h.left
      have h1 := h.right; simp only [f64b_length] at h1
      have h2 := h1.right; simp only [f64b_length] at h2
      have h3 := h2.right; simp only [i32b_length] at h3
      have h4 := h3.right; simp only [i32b_length] at h4
      have h5 := h4.right; simp only [i32b_length] at h5
      have h6 := h5.right; simp only [i32b_length] at h6
      have h7 := h6.right; simp only [i32b_length] at h7
      unfold readSpk
      simp only [readF64_at h0, readF64_at h1.left, readI32_at h2.left, Res.bind_ok]
      simp only [show off + 2 * 8 + 4 = off + 8 + 8 + 4 by ring,
        show off + 2 * 8 + 8 = off + 8 + 8 + 4 + 4 by ring,
        show off + 2 * 8 + 12 = off + 8 + 8 + 4 + 4 + 4 by ring,
        show off + 2 * 8 + 16 = off + 8 + 8 + 4 + 4 + 4 + 4 by ring,
        show off + 2 * 8 + 20 = off + 8 + 8 + 4 + 4 + 4 + 4 + 4 by ring,
        show off + 2 * 8 = off + 8 + 8 by ring,
        readI32_at h2.left, readI32_at h3.left, readI32_at h4.left, readI32_at h5.left,
        readI32_at h6.left, readI32_at h7.left, Res.bind_ok]
      rfl

theorem readSummaries_at {α β : Type} {read : Nat → Res Err β} {enc : α → Bytes} {val : α → β}
    {data : Bytes} {ss recOff : Nat} (xs : List α)
    (hr : ∀ x ∈ xs, ∀ off, At data off (enc x) → read off = .ok (val x))
    (hl : ∀ x ∈ xs, (enc x).length = ss * 8) :
    ∀ i, At data (recOff + 24 + i * ss * 8) (xs.flatMap enc) →
      readSummaries read data.length recOff ss xs.length i = .ok (xs.map val) := by
  induction xs with
  | nil => intro i _; rfl
  | cons x xs ih =>
    intro i h
    rw [List.flatMap_cons] at h
    have h1 := hr x (by simp) _ h.left
    have hlen := hl x (by simp)
    have hle := h.left.le
    rw [hlen] at hle
    have h2 := ih (fun y hy => hr y (by simp [hy])) (fun y hy => hl y (by simp [hy])) (i + 1) (by
      have := h.right
      rw [hlen] at this
      convert this using 1
      ring)
    simp only [List.length_cons, readSummaries]
    rw [if_neg (by omega)]
    simp only [h1, h2, Res.bind_ok, List.map_cons]

theorem recordLoop_chain {β : Type} {ck le : Bool} {nd ni : Nat} {data : Bytes}
    {read : Nat → Res Err β} {val : Entry → β}
    (hr : ∀ e : Entry, e.doubles.length = nd → e.ints.length = ni → ∀ off,
      At data off (encEntry le e) → read off = .ok (val e))
    {r : Nat} {groups : List (List Entry)} (h : Chain le nd ni data r groups) :
    ∀ fuel acc, groups.length < fuel →
      recordLoop ck le read data (summarySize nd ni) fuel r acc =
        some (.ok (acc ++ groups.flatten.map val)) := by
  induction h with
  | done =>
    intro fuel acc hf
    obtain ⟨k, rfl⟩ : ∃ k, fuel = k + 1 := ⟨fuel - 1, by omega⟩
    simp [recordLoop]
  | @link r next prev es rest h0 hr53 hn53 hl53 hlen hes hat _ ih =>
    intro fuel acc hf
    obtain ⟨k, rfl⟩ : ∃ k, fuel = k + 1 := ⟨fuel - 1, by omega⟩
    unfold recordBody at hat
    have hrec : readRecord ck le read data (summarySize nd ni) r = .ok (next, es.map val) := by
      unfold readRecord mulU addU
      have a1 : (r - 1) * 1024 < 2 ^ 64 := by omega
      have a2 : (r - 1) * 1024 + 1024 < 2 ^ 64 :=
        lt_of_le_of_lt (Nat.add_le_add_right (Nat.mul_le_mul_right 1024 (by omega : r - 1 ≤ 2 ^ 53)) 1024)
          (by norm_num)
      simp only [a1, a2, if_true, Res.bind_ok]
      rw [if_neg (by omega)]
      have w1 := readF64_at hat.left.left.left
      have w2 := hat.left.right
      simp only [List.length_append, f64b_length] at w2
      have w3 := readF64_at w2
      have w4 := hat.right
      simp only [List.length_append, f64b_length] at w4
      have w5 := readSummaries_at (val := val) (ss := summarySize nd ni) (recOff := (r - 1) * 1024) es
        (fun e he off ho => hr e (hes e he).1 (hes e he).2 off ho)
        (fun e he => encEntry_length (hes e he).1 (hes e he).2) 0 (by simpa using w4)
      rw [w1, w3]
      simp only [Res.bind_ok]
      rw [fToUsize_fOfNat hl53, w5, fToI64_fOfNat hn53]
      simp only [Res.bind_ok]
      rw [iToUsize_nat (by omega)]
    unfold recordLoop
    rw [if_neg h0, hrec]
    simp only
    rw [ih k _ (by simp at hf; omega)]
    simp

/-! ### Header -/

theorem locatorOk_of {other : Bytes → Bool} {loc : Bytes}
    (hp : "DAF/".toList.map (fun c => UInt8.ofNat c.toNat) <+: loc) (ha : ∀ b ∈ loc, b < 128) :
    locatorOk other loc = true := by
  obtain ⟨t, rfl⟩ := hp
  unfold locatorOk
  rw [if_pos (by simpa using ha)]
  rw [List.map_append]
  have h1 : (List.map (fun x : UInt8 => Char.ofNat x.toNat)
      (List.map (fun c : Char => UInt8.ofNat c.toNat) "DAF/".toList)) = ['D', 'A', 'F', '/'] := by
    decide
  rw [h1]
  generalize List.map (fun x : UInt8 => Char.ofNat x.toNat) t = u
  have h2 : trim (['D', 'A', 'F', '/'] ++ u) = trimEnd ('D' :: 'A' :: 'F' :: '/' :: u) := by
    unfold trim trimStart
    rfl
  rw [h2]
  unfold trimEnd
  have h3 : ∀ l : List Char, ∃ m : List Char,
      (l ++ ['/', 'F', 'A', 'D']).dropWhile isWs = m ++ ['/', 'F', 'A', 'D'] := by
    intro l
    induction l with
    | nil => exact ⟨[], by decide⟩
    | cons c l ih =>
      by_cases hc : isWs c
      · obtain ⟨m, hm⟩ := ih
        exact ⟨m, by simp [List.dropWhile_cons, hc, hm]⟩
      · exact ⟨c :: l, by simp [List.dropWhile_cons, hc]⟩
  obtain ⟨m, hm⟩ := h3 u.reverse
  have h4 : ('D' :: 'A' :: 'F' :: '/' :: u).reverse = u.reverse ++ ['/', 'F', 'A', 'D'] := by simp
  rw [h4, hm]
  simp [List.isPrefixOf]

theorem toInt_ofNat_small {n : Nat} (h : n < 2 ^ 31) : (BitVec.ofNat 32 n).toInt = n := by
  rw [BitVec.toInt_eq_toNat_cond, BitVec.toNat_ofNat]
  have : n % 2 ^ 32 = n := Nat.mod_eq_of_lt (by omega)
  rw [this, if_pos (by omega)]

theorem natBytes4_small {n : Nat} (h : n < 256) (le : Bool) :
    natBytes le 4 n = if le then [UInt8.ofNat n, 0, 0, 0] else [0, 0, 0, UInt8.ofNat n] := by
  have e : natLE 4 n = [UInt8.ofNat n, 0, 0, 0] := by
    simp only [natLE, Nat.mod_eq_of_lt h, Nat.div_eq_of_lt h]
    rfl
  cases le <;> simp [natBytes, e]

/-- A small number written big-endian is implausible when read little-endian. -/
theorem plausible_swapped {n : Nat} (h1 : 1 ≤ n) (h2 : n ≤ 100) :
    plausible (BitVec.ofNat 32 (bytesNat true (natBytes false 4 n))) = false := by
  rw [natBytes4_small (by omega)]
  simp only [Bool.false_eq_true, if_false, bytesNat, if_true, leNat]
  have : (UInt8.ofNat n).toNat = n := by
    simp only [UInt8.toNat_ofNat']; exact Nat.mod_eq_of_lt (by omega)
  rw [this]
  unfold plausible
  rw [toInt_ofNat_small (by simp; omega)]
  simp only [decide_eq_false_iff_not, not_and, not_le]
  intro _
  simp
  omega

theorem header_fields {le : Bool} {nd ni fward : Nat} {data : Bytes}
    (h : HasHeader le nd ni fward data) (other : Bytes → Bool) :
    locatorOk other (data.take 8) = true ∧ readShape data = .ok (le, nd, ni) ∧
      readI32 le data 76 = .ok (BitVec.ofNat 32 fward) := by
  obtain ⟨hnd, hni, hf, hsz, loc, name, tail, rest, hdata, hl8, hn60, hpre, hasc⟩ := h
  have hloc : data.take 8 = loc := by
    rw [hdata]; unfold header; simp [← hl8, List.append_assoc]
  have hat1 : At data 8 (i32b le (BitVec.ofNat 32 nd)) :=
    ⟨loc, i32b le (BitVec.ofNat 32 ni) ++ name ++ i32b le (BitVec.ofNat 32 fward) ++ tail ++ rest,
      by rw [hdata]; unfold header; simp [List.append_assoc], hl8⟩
  have hat2 : At data 12 (i32b le (BitVec.ofNat 32 ni)) :=
    ⟨loc ++ i32b le (BitVec.ofNat 32 nd),
      name ++ i32b le (BitVec.ofNat 32 fward) ++ tail ++ rest,
      by rw [hdata]; unfold header; simp [List.append_assoc], by simp [hl8]⟩
  have hat3 : At data 76 (i32b le (BitVec.ofNat 32 fward)) :=
    ⟨loc ++ i32b le (BitVec.ofNat 32 nd) ++ i32b le (BitVec.ofNat 32 ni) ++ name, tail ++ rest,
      by rw [hdata]; unfold header; simp [List.append_assoc], by simp [hl8, hn60]⟩
  refine ⟨?_, ?_, readI32_at hat3⟩
  · rw [hloc]; exact locatorOk_of hpre hasc
  · have t1 : (BitVec.ofNat 32 nd).toInt = nd := toInt_ofNat_small (by omega)
    have t2 : (BitVec.ofNat 32 ni).toInt = ni := toInt_ofNat_small (by omega)
    have p1 : plausible (BitVec.ofNat 32 nd) = true := by
      unfold plausible; rw [t1]; simp; omega
    have p2 : plausible (BitVec.ofNat 32 ni) = true := by
      unfold plausible; rw [t2]; simp; omega
    -- the reads in the opposite byte order do not panic
    have any : ∀ (b : Bool) {off : Nat} {x : BitVec 32}, At data off (i32b le x) →
        readI32 b data off = .ok (BitVec.ofNat 32 (bytesNat b (i32b le x))) := by
      intro b off x hx
      have := hx.slice
      rw [i32b_length] at this
      unfold readI32; rw [this]; rfl
    unfold readShape
    cases le with
    | true =>
      rw [readI32_at hat1, readI32_at hat2, any false hat1, any false hat2]
      simp only [Res.bind_ok, p1, p2, Bool.and_self, if_true, t1, t2, Int.toNat_natCast]
    | false =>
      rw [readI32_at hat1, readI32_at hat2, any true hat1, any true hat2]
      have q1 : plausible (BitVec.ofNat 32 (bytesNat true (i32b false (BitVec.ofNat 32 nd)))) = false := by
        unfold i32b
        rw [BitVec.toNat_ofNat, Nat.mod_eq_of_lt (by omega)]
        exact plausible_swapped hnd.1 hnd.2
      simp only [Res.bind_ok, q1, Bool.false_and, Bool.false_eq_true, if_false, p1, p2,
        Bool.and_self, if_true, t1, t2, Int.toNat_natCast]

end Verif.Daf
