import Mathlib.Data.Fintype.Pigeonhole
import Verif.Daf.Segment

namespace Verif.Daf
open Verif.Text Verif.Bits Spec

/-! ### Reads inside the file do not panic -/

theorem readF64_ne_panic {le : Bool} {data : Bytes} {off : Nat} (h : off + 8 ≤ data.length) :
    readF64 le data off ≠ .panic := by
  unfold readF64 sliceB; rw [if_pos h]; simp [Res.orPanic]

theorem readI32_ne_panic {le : Bool} {data : Bytes} {off : Nat} (h : off + 4 ≤ data.length) :
    readI32 le data off ≠ .panic := by
  unfold readI32 sliceB; rw [if_pos h]; simp [Res.orPanic]

theorem readMany_ne_panic {α : Type} {read : Nat → Res Err α} {base size : Nat} :
    ∀ n j, (∀ k < n, read (base + (j + k) * size) ≠ .panic) → readMany read base size n j ≠ .panic
  | 0, _, _ => by simp [readMany]
  | n + 1, j, h => by
    unfold readMany
    refine bind_ne_panic (by simpa using h 0 (by omega)) (fun _ _ => ?_)
    refine bind_ne_panic (readMany_ne_panic n (j + 1) (fun k hk => ?_)) (fun _ _ => by simp)
    have := h (k + 1) (by omega)
    rwa [show j + (k + 1) = j + 1 + k by ring] at this

theorem readRaw_ne_panic {le : Bool} {data : Bytes} {nd ni off : Nat}
    (h : off + summarySize nd ni * 8 ≤ data.length) : readRaw le data nd ni off ≠ .panic := by
  unfold summarySize at h
  unfold readRaw
  refine bind_ne_panic (readMany_ne_panic _ _ (fun k hk => readF64_ne_panic (by omega))) (fun _ _ => ?_)
  exact bind_ne_panic (readMany_ne_panic _ _ (fun k hk => readI32_ne_panic (by omega)))
    (fun _ _ => by simp)

theorem readSpk_ne_panic {le : Bool} {data : Bytes} {off : Nat}
    (h : off + summarySize 2 6 * 8 ≤ data.length) : readSpk le data 2 off ≠ .panic := by
  unfold summarySize at h
  unfold readSpk
  refine bind_ne_panic (readF64_ne_panic (by omega)) (fun _ _ => ?_)
  refine bind_ne_panic (readF64_ne_panic (by omega)) (fun _ _ => ?_)
  refine bind_ne_panic (readI32_ne_panic (by omega)) (fun _ _ => ?_)
  refine bind_ne_panic (readI32_ne_panic (by omega)) (fun _ _ => ?_)
  refine bind_ne_panic (readI32_ne_panic (by omega)) (fun _ _ => ?_)
  refine bind_ne_panic (readI32_ne_panic (by omega)) (fun _ _ => ?_)
  refine bind_ne_panic (readI32_ne_panic (by omega)) (fun _ _ => ?_)
  refine bind_ne_panic (readI32_ne_panic (by omega)) (fun _ _ => ?_)
  simp

theorem readSummaries_ne_panic {α : Type} {read : Nat → Res Err α} {len recOff ss : Nat}
    (h : ∀ off, off + ss * 8 ≤ len → read off ≠ .panic) :
    ∀ n i, readSummaries read len recOff ss n i ≠ .panic
  | 0, _ => by simp [readSummaries]
  | n + 1, i => by
    unfold readSummaries
    dsimp only
    split
    · simp
    · refine bind_ne_panic (h _ (by omega)) (fun _ _ => ?_)
      exact bind_ne_panic (readSummaries_ne_panic h n (i + 1)) (fun _ _ => by simp)

theorem rec_off_lt {r : Nat} (h : r < 2 ^ 53) :
    (r - 1) * 1024 < 2 ^ 64 ∧ (r - 1) * 1024 + 1024 < 2 ^ 64 := by
  have h2 : (r - 1) * 1024 + 1024 < 2 ^ 64 :=
    lt_of_le_of_lt (Nat.add_le_add_right (Nat.mul_le_mul_right 1024 (by omega : r - 1 ≤ 2 ^ 53)) 1024)
      (by norm_num)
  exact ⟨lt_of_le_of_lt (Nat.le_add_right _ _) h2, h2⟩

theorem readRecord_ne_panic {α : Type} {ck le : Bool} {read : Nat → Res Err α} {data : Bytes}
    {ss r : Nat} (hr : r < 2 ^ 53) (h : ∀ off, off + ss * 8 ≤ data.length → read off ≠ .panic) :
    readRecord ck le read data ss r ≠ .panic := by
  obtain ⟨a1, a2⟩ := rec_off_lt hr
  unfold readRecord mulU addU
  simp only [a1, a2, if_true, Res.bind_ok]
  split
  · simp
  · refine bind_ne_panic (readF64_ne_panic (by omega)) (fun _ _ => ?_)
    refine bind_ne_panic (readF64_ne_panic (by omega)) (fun _ _ => ?_)
    exact bind_ne_panic (readSummaries_ne_panic h _ _) (fun _ _ => by simp)

theorem readF64_ok_at {le : Bool} {data : Bytes} {off : Nat} {w : BitVec 64}
    (h : readF64 le data off = .ok w) : At data off (f64b le w) := by
  unfold readF64 at h
  cases hs : sliceB data off 8 with
  | none => rw [hs] at h; simp [Res.orPanic] at h
  | some b =>
    rw [hs] at h
    obtain ⟨ha, hl⟩ := sliceB_at hs
    simp only [Option.map_some, Res.orPanic, Res.ok.injEq] at h
    have : f64b le w = b := by
      rw [← h]
      unfold f64b natBytes bytesNat beNat
      rw [BitVec.toNat_ofNat]
      cases le with
      | true =>
        simp only [if_true]
        have hlt := leNat_lt b
        rw [hl] at hlt
        rw [Nat.mod_eq_of_lt (by omega)]
        have := natLE_leNat b
        rwa [hl] at this
      | false =>
        simp only [Bool.false_eq_true, if_false]
        have hlt := leNat_lt b.reverse
        rw [List.length_reverse, hl] at hlt
        rw [Nat.mod_eq_of_lt (by omega)]
        have := natLE_leNat b.reverse
        rw [List.length_reverse, hl] at this
        rw [this, List.reverse_reverse]
    rwa [this]

theorem readI32_ok_at {le : Bool} {data : Bytes} {off : Nat} {w : BitVec 32}
    (h : readI32 le data off = .ok w) : At data off (i32b le w) := by
  unfold readI32 at h
  cases hs : sliceB data off 4 with
  | none => rw [hs] at h; simp [Res.orPanic] at h
  | some b =>
    rw [hs] at h
    obtain ⟨ha, hl⟩ := sliceB_at hs
    simp only [Option.map_some, Res.orPanic, Res.ok.injEq] at h
    have : i32b le w = b := by
      rw [← h]
      unfold i32b natBytes bytesNat beNat
      rw [BitVec.toNat_ofNat]
      cases le with
      | true =>
        simp only [if_true]
        have hlt := leNat_lt b
        rw [hl] at hlt
        rw [Nat.mod_eq_of_lt (by omega)]
        have := natLE_leNat b
        rwa [hl] at this
      | false =>
        simp only [Bool.false_eq_true, if_false]
        have hlt := leNat_lt b.reverse
        rw [List.length_reverse, hl] at hlt
        rw [Nat.mod_eq_of_lt (by omega)]
        have := natLE_leNat b.reverse
        rw [List.length_reverse, hl] at this
        rw [this, List.reverse_reverse]
    rwa [this]

theorem readShape_order {data : Bytes} {le : Bool} {nd ni : Nat}
    (h : readShape data = .ok (le, nd, ni)) : ByteOrder le data := by
  unfold readShape at h
  obtain ⟨a, ha, h⟩ := bind_eq_ok h
  obtain ⟨b, hb, h⟩ := bind_eq_ok h
  obtain ⟨c, hc, h⟩ := bind_eq_ok h
  obtain ⟨d, hd, h⟩ := bind_eq_ok h
  unfold plausible at h
  split at h
  · rename_i hp
    simp only [Bool.and_eq_true, decide_eq_true_eq] at hp
    simp only [Res.ok.injEq, Prod.mk.injEq] at h
    obtain ⟨rfl, _⟩ := h
    exact ⟨a, b, readI32_ok_at ha, readI32_ok_at hb, by omega, by omega, by omega, by omega⟩
  · split at h
    · rename_i hp
      simp only [Bool.and_eq_true, decide_eq_true_eq] at hp
      simp only [Res.ok.injEq, Prod.mk.injEq] at h
      obtain ⟨rfl, _⟩ := h
      exact ⟨c, d, readI32_ok_at hc, readI32_ok_at hd, by omega, by omega, by omega, by omega⟩
    · simp at h

/-- What one pass returns: the record lies in the file and the next record is its first word. -/
theorem readRecord_next {α : Type} {ck le : Bool} {read : Nat → Res Err α} {data : Bytes}
    {ss r next : Nat} {xs : List α} (hr : r < 2 ^ 53)
    (h : readRecord ck le read data ss r = .ok (next, xs)) :
    (r - 1) * 1024 + 1024 ≤ data.length ∧
      ∃ w, At data ((r - 1) * 1024) (f64b le w) ∧ next = iToUsize (fToI64 w) := by
  obtain ⟨a1, a2⟩ := rec_off_lt hr
  unfold readRecord mulU addU at h
  simp only [a1, a2, if_true, Res.bind_ok] at h
  split at h
  · simp at h
  · obtain ⟨w, hw, h⟩ := bind_eq_ok h
    obtain ⟨v, hv, h⟩ := bind_eq_ok h
    obtain ⟨ys, hys, h⟩ := bind_eq_ok h
    injection h with h
    injection h with h1 h2
    exact ⟨by omega, w, readF64_ok_at hw, h1.symm⟩

/-- Pointers that only move forward: the loop finishes, without panic. -/
theorem recordLoop_forward {α : Type} {ck le : Bool} {read : Nat → Res Err α} {data : Bytes}
    {ss : Nat} {first : Int} (hread : ∀ off, off + ss * 8 ≤ data.length → read off ≠ .panic)
    (hfwd : ∀ r w, Reach le data first r → 0 < r → At data ((r - 1).toNat * 1024) (f64b le w) →
      fToI64 w = 0 ∨ (r < fToI64 w ∧ fToI64 w < 2 ^ 53)) :
    ∀ (fuel r : Nat) acc, Reach le data first r → r < 2 ^ 53 → 1 ≤ fuel →
      (r ≠ 0 → data.length / 1024 + 2 ≤ fuel + r) →
      ∃ res, recordLoop ck le read data ss fuel r acc = some res ∧ res ≠ .panic
  | 0, _, _, _, _, h, _ => by omega
  | n + 1, r, acc, hreach, hr, _, hm => by
    unfold recordLoop
    split
    · exact ⟨_, rfl, by simp⟩
    · rename_i h0
      cases hrec : readRecord ck le read data ss r with
      | err e => exact ⟨_, rfl, by simp⟩
      | panic => exact absurd hrec (readRecord_ne_panic hr hread)
      | ok p =>
        obtain ⟨next, xs⟩ := p
        obtain ⟨hlen, w, hw, hnext⟩ := readRecord_next hr hrec
        have hm' := hm h0
        have hw' : At data (((r : Int) - 1).toNat * 1024) (f64b le w) := by
          rwa [show ((r : Int) - 1).toNat = r - 1 by omega]
        have hreach' := Reach.next hreach (by omega) hw'
        rcases hfwd r w hreach (by omega) hw' with hz | ⟨hlt, hb⟩
        · have hv : next = 0 := by rw [hnext, hz]; rfl
          subst hv
          refine recordLoop_forward hread hfwd n 0 _ ?_ (by norm_num) (by omega) (by simp)
          rw [hz] at hreach'
          exact hreach'
        · have hv : next = (fToI64 w).toNat := by
            rw [hnext]; unfold iToUsize; omega
          refine recordLoop_forward hread hfwd n next _ ?_ (by omega) (by omega) (by omega)
          rw [show (next : Int) = fToI64 w by omega]
          exact hreach'

/-! ### A run that does not stop soon never stops -/

/-- The record number after one pass, if the loop goes on. -/
def step {α : Type} (ck le : Bool) (read : Nat → Res Err α) (data : Bytes) (ss r : Nat) : Option Nat :=
  if r = 0 then none
  else match readRecord ck le read data ss r with
    | .ok (next, _) => some next
    | _ => none

def iter (f : Nat → Option Nat) : Nat → Nat → Option Nat
  | 0, r => some r
  | n + 1, r => (f r).bind (iter f n)

theorem iter_add (f : Nat → Option Nat) : ∀ m n r, iter f (m + n) r = (iter f m r).bind (iter f n)
  | 0, n, r => by simp [iter]
  | m + 1, n, r => by
    rw [show m + 1 + n = (m + n) + 1 by ring]
    simp only [iter]
    cases f r with
    | none => rfl
    | some x => simpa using iter_add f m n x

theorem recordLoop_none_iff {α : Type} {ck le : Bool} {read : Nat → Res Err α} {data : Bytes}
    {ss : Nat} : ∀ fuel r acc, recordLoop ck le read data ss fuel r acc = none ↔
      (iter (step ck le read data ss) fuel r).isSome
  | 0, _, _ => by simp [recordLoop, iter]
  | n + 1, r, acc => by
    unfold recordLoop iter step
    split
    · simp
    · cases hrec : readRecord ck le read data ss r with
      | err e => simp
      | panic => simp
      | ok p =>
        obtain ⟨next, xs⟩ := p
        simp only [Option.bind_some]
        exact recordLoop_none_iff n next _

theorem iter_forever {f : Nat → Option Nat} {key : Nat → Nat} {L : Nat}
    (hk : ∀ r, (f r).isSome → key r < L)
    (hf : ∀ r s, (f r).isSome → (f s).isSome → key r = key s → f r = f s) {r : Nat}
    (h : (iter f (L + 1) r).isSome) : ∀ n, (iter f n r).isSome := by
  have pre : ∀ a b, (iter f (a + b) r).isSome → (iter f a r).isSome := by
    intro a b hab
    rw [iter_add] at hab
    cases hc : iter f a r with
    | none => rw [hc] at hab; simp at hab
    | some x => rfl
  -- the state before pass i
  have hst : ∀ i ≤ L, ∃ x, iter f i r = some x ∧ (f x).isSome := by
    intro i hi
    have h1 : (iter f (i + 1) r).isSome := by
      refine pre (i + 1) (L - i) ?_
      rwa [show i + 1 + (L - i) = L + 1 by omega]
    rw [iter_add] at h1
    cases hc : iter f i r with
    | none => rw [hc] at h1; simp at h1
    | some x =>
      refine ⟨x, rfl, ?_⟩
      rw [hc] at h1
      simp only [Option.bind_some, iter] at h1
      cases hx : f x with
      | none => rw [hx] at h1; simp at h1
      | some y => rfl
  choose st hst1 hst2 using hst
  let g : Fin (L + 1) → Fin L := fun i =>
    ⟨key (st i (by omega)), hk _ (hst2 i (by omega))⟩
  obtain ⟨i, j, hij, hg⟩ := Fintype.exists_ne_map_eq_of_card_lt g (by simp)
  have main : ∀ i j : Fin (L + 1), i.val < j.val → g i = g j → ∀ n, (iter f n r).isSome := by
    intro i j hlt hg
    have hkey : key (st i (by omega)) = key (st j (by omega)) := congrArg Fin.val hg
    have hstep := hf _ _ (hst2 i (by omega)) (hst2 j (by omega)) hkey
    have hshift : ∀ m, iter f (j.val + (m + 1)) r = iter f (i.val + (m + 1)) r := by
      intro m
      rw [iter_add, iter_add, hst1 j (by omega), hst1 i (by omega)]
      simp only [Option.bind_some, iter, hstep]
    intro n
    induction n using Nat.strong_induction_on with
    | _ n ih =>
      by_cases hn : n ≤ L + 1
      · refine pre n (L + 1 - n) ?_
        rwa [show n + (L + 1 - n) = L + 1 by omega]
      · have := hshift (n - j.val - 1)
        rw [show j.val + (n - j.val - 1 + 1) = n by omega] at this
        rw [this]
        exact ih _ (by omega)
  rcases lt_trichotomy i.val j.val with hlt | heq | hlt
  · exact main i j hlt hg
  · exact absurd (Fin.ext heq) hij
  · exact main j i hlt hg.symm

/-- The byte offset a pass reads from. -/
def recKey (r : Nat) : Nat := (r - 1) * 1024 % 2 ^ 64 / 1024

theorem readRecord_key {α : Type} {ck le : Bool} {read : Nat → Res Err α} {data : Bytes} {ss r : Nat}
    {p : Nat × List α} (hlen : data.length < 2 ^ 63)
    (h : readRecord ck le read data ss r = .ok p) :
    recKey r < data.length / 1024 ∧ ∀ s, recKey s = recKey r →
      ∀ q, readRecord ck le read data ss s = .ok q → q = p := by
  have hmul : ∀ x : Nat, ∀ y, (mulU ck (x - 1) 1024 : Res Err Nat) = .ok y → y = recKey x * 1024 := by
    intro x y hy
    have hm : (x - 1) * 1024 % 2 ^ 64 = recKey x * 1024 := by
      unfold recKey
      have : (2 : Nat) ^ 64 = 2 ^ 54 * 1024 := by norm_num
      rw [this, Nat.mul_mod_mul_right, Nat.mul_div_cancel _ (by norm_num)]
    unfold mulU at hy
    split at hy
    · rename_i hlt
      injection hy with hy
      rw [← hm, Nat.mod_eq_of_lt hlt, hy]
    · split at hy
      · simp at hy
      · injection hy with hy
        rw [← hm, hy]
  have hunf : ∀ x q, readRecord ck le read data ss x = .ok q → ∃ k, k = recKey x * 1024 ∧
      (do
        let recEnd ← addU ck k 1024
        if recEnd > data.length then .err .recordPastEof
        else do
          let nextW ← readF64 le data k
          let nsumW ← readF64 le data (k + 16)
          let xs ← readSummaries read data.length k ss (fToUsize nsumW) 0
          .ok (iToUsize (fToI64 nextW), xs) : Res Err (Nat × List α)) = .ok q := by
    intro x q hq
    unfold readRecord at hq
    obtain ⟨k, hk, hq⟩ := bind_eq_ok hq
    exact ⟨k, hmul x k hk, hq⟩
  obtain ⟨k, hk, h1⟩ := hunf r p h
  refine ⟨?_, ?_⟩
  · obtain ⟨e, he, h1⟩ := bind_eq_ok h1
    split at h1
    · simp at h1
    · rename_i hle
      obtain ⟨w, hw, h1⟩ := bind_eq_ok h1
      have hat := (readF64_ok_at hw).le
      rw [f64b_length] at hat
      unfold addU at he
      split at he
      · injection he with he
        omega
      · rename_i hov; omega
  · intro s hs q hq
    obtain ⟨k', hk', h2⟩ := hunf s q hq
    have hkk : k' = k := by rw [hk', hs, hk]
    rw [hkk] at h2
    exact Res.ok.inj (h2.symm.trans h1)

end Verif.Daf
