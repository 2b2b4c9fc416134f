import Mathlib.Data.List.GetD
import Verif.Daf.Lemmas

namespace Verif.Daf
open Verif.Text Verif.Bits Spec

theorem bind_ne_panic {ε α β : Type} {x : Res ε α} {f : α → Res ε β} (h1 : x ≠ .panic)
    (h2 : ∀ a, x = .ok a → f a ≠ .panic) : (x >>= f) ≠ .panic := by
  cases x with
  | ok a => exact h2 a rfl
  | err e => simp
  | panic => exact absurd rfl h1

theorem bind_eq_ok {ε α β : Type} {x : Res ε α} {f : α → Res ε β} {b : β} (h : (x >>= f) = .ok b) :
    ∃ a, x = .ok a ∧ f a = .ok b := by
  cases x with
  | ok a => exact ⟨a, rfl, h⟩
  | err e => simp at h
  | panic => simp at h

theorem sliceB_at {data b : Bytes} {off n : Nat} (h : sliceB data off n = some b) :
    At data off b ∧ b.length = n := by
  unfold sliceB at h
  split at h
  · injection h with h
    refine ⟨⟨data.take off, data.drop (off + n), ?_, ?_⟩, ?_⟩
    · rw [← h, ← List.drop_drop, List.append_assoc, List.take_append_drop, List.take_append_drop]
    · simp; omega
    · rw [← h]; simp; omega
  · simp at h

theorem natLE_leNat (b : Bytes) : natLE b.length (leNat b) = b := by
  induction b with
  | nil => rfl
  | cons x xs ih =>
    simp only [leNat, List.length_cons, natLE]
    have hx : x.toNat < 256 := x.toNat_lt
    have h1 : (x.toNat + 256 * leNat xs) % 256 = x.toNat := by omega
    have h2 : (x.toNat + 256 * leNat xs) / 256 = leNat xs := by omega
    rw [h1, h2, ih]
    simp

theorem readWord_ok_iff {data : Bytes} {w : Nat} {x : BitVec 64} :
    readWord data w = .ok x ↔ WordAt data w x := by
  unfold readWord WordAt
  constructor
  · intro h
    split at h
    · simp at h
    · refine ⟨by omega, ?_⟩
      unfold readF64 at h
      cases hs : sliceB data ((w - 1) * 8) 8 with
      | none => rw [hs] at h; simp [Res.orPanic] at h
      | some b =>
        rw [hs] at h
        obtain ⟨ha, hl⟩ := sliceB_at hs
        simp only [Option.map_some, Res.orPanic, Res.ok.injEq] at h
        have : f64b true x = b := by
          rw [← h]
          unfold f64b natBytes bytesNat
          simp only [if_true]
          rw [BitVec.toNat_ofNat]
          have hlt := leNat_lt b
          rw [hl] at hlt
          rw [Nat.mod_eq_of_lt (by omega)]
          have := natLE_leNat b
          rwa [hl] at this
        rwa [this]
  · rintro ⟨h1, h2⟩
    rw [if_neg (by omega)]
    exact readF64_at h2

theorem readWord_inFile {data : Bytes} {w : Nat} (h1 : 1 ≤ w) (h2 : w ≤ data.length / 8) :
    ∃ x, readWord data w = .ok x := by
  unfold readWord readF64 sliceB
  rw [if_neg (by omega), if_pos (by omega)]
  exact ⟨_, rfl⟩

theorem readWord_outside {data : Bytes} {w : Nat} (h : w = 0 ∨ data.length < w * 8) :
    readWord data w = .panic := by
  unfold readWord
  split
  · rfl
  · unfold readF64 sliceB
    rw [if_neg (by omega)]
    rfl

theorem ensureWord_ok_iff {data : Bytes} {w : Nat} :
    ensureWord data w = .ok () ↔ 1 ≤ w ∧ w ≤ data.length / 8 := by
  unfold ensureWord
  split
  · simp; omega
  · split
    · simp; omega
    · simp; omega

theorem ensureWord_ne_panic (data : Bytes) (w : Nat) : ensureWord data w ≠ .panic := by
  unfold ensureWord
  split
  · simp
  · split <;> simp

theorem readTrailer_ne_panic (data : Bytes) (w : Nat) : readTrailer data w ≠ .panic := by
  unfold readTrailer
  refine bind_ne_panic (ensureWord_ne_panic _ _) (fun u hu => ?_)
  obtain ⟨h1, h2⟩ := ensureWord_ok_iff.mp hu
  obtain ⟨x, hx⟩ := readWord_inFile h1 h2
  rw [hx]
  simp only [Res.bind_ok]
  split <;> simp

theorem readTrailer_ok_iff {data : Bytes} {w : Nat} {p : BitVec 64 × ℚ} :
    readTrailer data w = .ok p ↔ w ≤ data.length / 8 ∧ WordAt data w p.1 ∧ fVal p.1 = some p.2 := by
  unfold readTrailer
  constructor
  · intro h
    obtain ⟨u, hu, h⟩ := bind_eq_ok h
    obtain ⟨x, hx, h⟩ := bind_eq_ok h
    obtain ⟨h1, h2⟩ := ensureWord_ok_iff.mp hu
    split at h
    · rename_i q hq
      injection h with h
      subst h
      exact ⟨h2, readWord_ok_iff.mp hx, hq⟩
    · simp at h
  · rintro ⟨h1, h2, h3⟩
    rw [ensureWord_ok_iff.mpr ⟨h2.1, h1⟩, readWord_ok_iff.mpr h2]
    simp only [Res.bind_ok, h3]

theorem readChecked_ne_panic (data : Bytes) (start : Nat) :
    ∀ n i, readChecked data start n i ≠ .panic
  | 0, _ => by simp [readChecked]
  | n + 1, i => by
    unfold readChecked
    refine bind_ne_panic (ensureWord_ne_panic _ _) (fun u hu => ?_)
    obtain ⟨h1, h2⟩ := ensureWord_ok_iff.mp hu
    obtain ⟨x, hx⟩ := readWord_inFile h1 h2
    rw [hx]
    simp only [Res.bind_ok]
    exact bind_ne_panic (readChecked_ne_panic data start n (i + 1)) (fun _ _ => by simp)

theorem readChecked_ok_iff {data : Bytes} {start : Nat} : ∀ {n i : Nat} {ws : List (BitVec 64)},
    readChecked data start n i = .ok ws ↔ ws.length = n ∧
      ∀ k (h : k < ws.length), start + (i + k) ≤ data.length / 8 ∧ WordAt data (start + (i + k)) ws[k]
  | 0, i, ws => by
    simp only [readChecked, Res.ok.injEq]
    constructor
    · rintro rfl; simp
    · rintro ⟨h, _⟩; exact (List.length_eq_zero_iff.mp h).symm
  | n + 1, i, ws => by
    unfold readChecked
    constructor
    · intro h
      obtain ⟨u, hu, h⟩ := bind_eq_ok h
      obtain ⟨x, hx, h⟩ := bind_eq_ok h
      obtain ⟨xs, hxs, h⟩ := bind_eq_ok h
      injection h with h
      subst h
      obtain ⟨h1, h2⟩ := readChecked_ok_iff.mp hxs
      refine ⟨by simp [h1], fun k hk => ?_⟩
      cases k with
      | zero => exact ⟨(ensureWord_ok_iff.mp hu).2, readWord_ok_iff.mp hx⟩
      | succ k =>
        have := h2 k (by simpa using hk)
        rw [show i + (k + 1) = i + 1 + k by ring]
        simpa using this
    · rintro ⟨hl, hw⟩
      cases ws with
      | nil => simp at hl
      | cons x xs =>
        have h0 := hw 0 (by simp)
        simp only [Nat.add_zero, List.getElem_cons_zero] at h0
        have hrec : readChecked data start n (i + 1) = .ok xs := by
          refine readChecked_ok_iff.mpr ⟨by simpa using hl, fun k hk => ?_⟩
          have := hw (k + 1) (by simpa using hk)
          rw [show i + (k + 1) = i + 1 + k by ring] at this
          simpa using this
        rw [ensureWord_ok_iff.mpr ⟨h0.2.1, h0.1⟩, readWord_ok_iff.mpr h0.2]
        simp only [Res.bind_ok, hrec]

theorem readTable_ne_panic (data : Bytes) (s : Summary) (init intlen : ℚ) (a b c : Nat) :
    readTable data s init intlen a b c ≠ .panic := by
  unfold readTable
  dsimp only
  split
  · simp
  · split
    · simp
    · split
      · simp
      · split
        · simp
        · refine bind_ne_panic (ensureWord_ne_panic _ _) (fun _ _ => ?_)
          exact bind_ne_panic (readChecked_ne_panic _ _ _ _) (fun _ _ => by simp)

theorem checkTrailer_ne_panic (data : Bytes) (s : Summary) (n r : BitVec 64 × ℚ) (l i : ℚ) :
    checkTrailer data s n r l i ≠ .panic := by
  unfold checkTrailer
  dsimp only
  repeat' split
  all_goals first
    | exact readTable_ne_panic _ _ _ _ _ _ _
    | simp

/-- No panic: without overflow checks always, with them unless `start_word + 3` overflows. -/
theorem readSegment_ne_panic {ck : Bool} {data : Bytes} {s : Summary}
    (h : ck = false ∨ s.startWord + 3 < 2 ^ 64) : readSegment ck data s ≠ .panic := by
  unfold readSegment
  split
  · simp
  · rename_i h0
    split
    · simp
    · rename_i h1
      have hadd : (addU ck s.startWord 3 : Res Err Nat) ≠ .panic := by
        unfold addU
        rcases h with h | h
        · subst h; split <;> simp
        · rw [if_pos h]; simp
      refine bind_ne_panic hadd (fun lim hlim => ?_)
      split
      · simp
      · rename_i h2
        have hend : 3 ≤ s.endWord := by
          unfold addU at hlim
          split at hlim
          · injection hlim; omega
          · omega
        refine bind_ne_panic (ensureWord_ne_panic _ _) (fun _ _ => ?_)
        simp only [subU, if_pos hend, if_pos (show 1 ≤ s.endWord by omega),
          if_pos (show 2 ≤ s.endWord by omega), Res.bind_ok]
        refine bind_ne_panic (ensureWord_ne_panic _ _) (fun _ _ => ?_)
        refine bind_ne_panic (ensureWord_ne_panic _ _) (fun _ _ => ?_)
        refine bind_ne_panic (ensureWord_ne_panic _ _) (fun _ _ => ?_)
        refine bind_ne_panic (readTrailer_ne_panic _ _) (fun _ _ => ?_)
        refine bind_ne_panic (readTrailer_ne_panic _ _) (fun _ _ => ?_)
        refine bind_ne_panic (readTrailer_ne_panic _ _) (fun _ _ => ?_)
        refine bind_ne_panic (readTrailer_ne_panic _ _) (fun _ _ => ?_)
        exact checkTrailer_ne_panic _ _ _ _ _ _

theorem coeffAxes_eq {t : Int} {a : Nat} : coeffAxes t = some a ↔ (t = 2 ∧ a = 3) ∨ (t = 3 ∧ a = 6) := by
  unfold coeffAxes
  split
  · rename_i h; subst h; simp; omega
  · split
    · rename_i h; subst h; simp; omega
    · simp; omega

/-- A non-negative integral float below the cap converts to its value. -/
theorem fToUsize_of_fVal {w : BitVec 64} {q : ℚ} (h : fVal w = some q) (hf : hasFract q = false)
    (hcap : fToUsize w < 2 ^ 64 - 1) (hpos : 0 ≤ q ∨ 1 ≤ fToUsize w) : q = (fToUsize w : ℚ) := by
  unfold fToUsize fCast at *
  rw [h] at hcap hpos ⊢
  simp only at hcap hpos ⊢
  unfold hasFract at hf
  simp only [ne_eq, decide_eq_false_iff_not, not_not] at hf
  set z := ⌊q⌋ with hz
  have ht : truncRat q = z := by
    unfold truncRat
    split
    · rfl
    · rw [hf]; simp
  rw [ht] at hcap hpos ⊢
  have hz0 : 0 ≤ z := by
    rcases hpos with hpos | hpos
    · rw [hz]; exact Int.floor_nonneg.mpr hpos
    · omega
  have : ((max 0 (min (2 ^ 64 - 1) z)).toNat : ℤ) = z := by omega
  rw [hf]
  exact_mod_cast this.symm

theorem fToUsize_nat_val {w : BitVec 64} {n : Nat} (h : fVal w = some (n : ℚ)) (hn : n < 2 ^ 64) :
    fToUsize w = n := by
  unfold fToUsize fCast
  rw [h]
  have : truncRat (n : ℚ) = n := by simp [truncRat]
  simp only [this]
  omega

theorem hasFract_nat (n : Nat) : hasFract (n : ℚ) = false := by simp [hasFract]

/-- The reader accepts exactly the segments laid out as the format says, and returns their
contents. -/
theorem readSegment_ok_iff {ck : Bool} {data : Bytes} {s : Summary} {d : SegmentData}
    (hs : s.startWord + 3 < 2 ^ 64) (he : s.endWord < 2 ^ 64) :
    readSegment ck data s = .ok d ↔
      d.dataType = s.dataType ∧
      ChebLayout data s.startWord s.endWord s.dataType d.init d.intlen d.rsize d.ncoeff d.nRecords
        d.records := by
  constructor
  · intro h
    unfold readSegment at h
    split at h
    · simp at h
    rename_i h0
    split at h
    · simp at h
    rename_i h1
    obtain ⟨lim, hlim, h⟩ := bind_eq_ok h
    unfold addU at hlim
    rw [if_pos hs] at hlim
    injection hlim with hlim
    subst hlim
    split at h
    · simp at h
    rename_i h2
    obtain ⟨_, _, h⟩ := bind_eq_ok h
    simp only [subU, if_pos (show 3 ≤ s.endWord by omega), if_pos (show 1 ≤ s.endWord by omega),
          if_pos (show 2 ≤ s.endWord by omega), Res.bind_ok] at h
    obtain ⟨_, _, h⟩ := bind_eq_ok h
    obtain ⟨_, _, h⟩ := bind_eq_ok h
    obtain ⟨_, _, h⟩ := bind_eq_ok h
    obtain ⟨⟨wn, qn⟩, hn, h⟩ := bind_eq_ok h
    obtain ⟨⟨wr, qr⟩, hr, h⟩ := bind_eq_ok h
    obtain ⟨⟨wl, ql⟩, hl, h⟩ := bind_eq_ok h
    obtain ⟨⟨wi, qi⟩, hi, h⟩ := bind_eq_ok h
    obtain ⟨bn, an, vn⟩ := readTrailer_ok_iff.mp hn
    obtain ⟨_, ar, vr⟩ := readTrailer_ok_iff.mp hr
    obtain ⟨_, al, vl⟩ := readTrailer_ok_iff.mp hl
    obtain ⟨_, ai, vi⟩ := readTrailer_ok_iff.mp hi
    simp only at an ar al ai vn vr vl vi
    unfold checkTrailer at h
    simp only at h
    split at h
    · simp at h
    rename_i hlen
    split at h
    · simp at h
    rename_i hnf
    split at h
    · simp at h
    rename_i hnr
    split at h
    · simp at h
    rename_i hrf
    split at h
    · simp at h
    rename_i hrr
    split at h
    · simp at h
    rename_i axes hax
    split at h
    · simp at h
    rename_i hsz
    unfold readTable at h
    simp only at h
    split at h
    · simp at h
    split at h
    · simp at h
    split at h
    · simp at h
    split at h
    · simp at h
    rename_i hext
    obtain ⟨_, _, h⟩ := bind_eq_ok h
    obtain ⟨recs, hrecs, h⟩ := bind_eq_ok h
    injection h with h
    subst h
    simp only
    push Not at hnf hnr hrr hsz
    have hnrec : 1 ≤ fToUsize wn := by omega
    have hprod : 1 ≤ fToUsize wn * fToUsize wr := Nat.mul_pos (by omega) (by omega)
    obtain ⟨rl, rw_⟩ := readChecked_ok_iff.mp hrecs
    refine ⟨trivial, ?_⟩
    refine ⟨by omega, ?_, hrr, ⟨hnrec, hnr.2⟩, by linarith, rl, by omega, by omega, ?_,
      wi, wl, wr, wn, ai, al, ar, an, vi, vl, ?_, ?_⟩
    · rcases coeffAxes_eq.mp hax with ⟨h3, rfl⟩ | ⟨h3, rfl⟩
      · exact Or.inl ⟨h3, by omega⟩
      · exact Or.inr ⟨h3, by omega⟩
    · intro i hi
      have := (rw_ i hi).2
      rwa [Nat.zero_add] at this
    · rw [vr, ← fToUsize_of_fVal vr (by simpa using hrf) (by omega) (Or.inr (by omega))]
    · rw [vn, ← fToUsize_of_fVal vn (by simpa using hnf.1) (by omega) (Or.inl (by linarith [hnf.2]))]
  · rintro ⟨ht, hL⟩
    obtain ⟨hst, hty, hrs, hnr, hil, hc, hext, hin, hw, wi, wl, wr, wn, ai, al, ar, an, vi, vl, vr, vn⟩ := hL
    have hprod : 1 ≤ d.nRecords * d.rsize := Nat.mul_pos (by omega) (by omega)
    unfold readSegment
    rw [if_neg (by omega), if_neg (by omega)]
    simp only [addU, if_pos hs, Res.bind_ok]
    rw [if_neg (by omega)]
    simp only [subU, if_pos (show 3 ≤ s.endWord by omega), if_pos (show 1 ≤ s.endWord by omega),
          if_pos (show 2 ≤ s.endWord by omega), Res.bind_ok]
    rw [ensureWord_ok_iff.mpr ⟨by omega, by omega⟩, ensureWord_ok_iff.mpr ⟨by omega, by omega⟩,
      ensureWord_ok_iff.mpr ⟨by omega, by omega⟩, ensureWord_ok_iff.mpr ⟨by omega, by omega⟩]
    simp only [Res.bind_ok]
    rw [readTrailer_ok_iff (p := (wn, (d.nRecords : ℚ))) |>.mpr ⟨by omega, an, vn⟩,
      readTrailer_ok_iff (p := (wr, (d.rsize : ℚ))) |>.mpr ⟨by omega, ar, vr⟩,
      readTrailer_ok_iff (p := (wl, d.intlen)) |>.mpr ⟨by omega, al, vl⟩,
      readTrailer_ok_iff (p := (wi, d.init)) |>.mpr ⟨by omega, ai, vi⟩]
    simp only [Res.bind_ok]
    unfold checkTrailer
    rw [if_neg (not_le.mpr hil)]
    simp only [hasFract_nat, Bool.false_eq_true, false_or, if_false]
    rw [if_neg (not_lt.mpr (Nat.cast_nonneg _)), fToUsize_nat_val vn (by omega),
      fToUsize_nat_val vr (by omega), if_neg (by omega), if_neg (by omega)]
    have key : ∀ axes, coeffAxes s.dataType = some axes → d.rsize = 2 + axes * d.ncoeff → 1 ≤ axes →
        (match coeffAxes s.dataType with
          | none => (.err .unsupported : Res Err SegmentData)
          | some axes => if 2 + axes * ((d.rsize - 2) / axes) ≠ d.rsize then .err .badRsize
            else readTable data s d.init d.intlen d.nRecords d.rsize ((d.rsize - 2) / axes)) = .ok d := by
      intro axes ha hrz hpos
      rw [ha]
      have hq : (d.rsize - 2) / axes = d.ncoeff := by
        rw [hrz, Nat.add_sub_cancel_left, Nat.mul_div_cancel_left _ hpos]
      simp only [hq]
      rw [if_neg (by omega)]
      unfold readTable
      dsimp only
      rw [if_neg (by omega), if_neg (by omega), if_neg (by omega), if_neg (by omega)]
      rw [ensureWord_ok_iff.mpr ⟨by omega, by omega⟩]
      rw [readChecked_ok_iff.mpr ⟨hc, fun k hk => ⟨by omega, by rw [Nat.zero_add]; exact hw k hk⟩⟩]
      simp only [Res.bind_ok]
      rw [← ht]
    rcases hty with ⟨h2, h3⟩ | ⟨h2, h3⟩
    · exact key 3 (coeffAxes_eq.mpr (Or.inl ⟨h2, rfl⟩)) h3 (by omega)
    · exact key 6 (coeffAxes_eq.mpr (Or.inr ⟨h2, rfl⟩)) h3 (by omega)

/-! ### The readers of segment.rs -/

theorem readUnchecked_ne_panic {data : Bytes} {start : Nat} (h1 : 1 ≤ start) :
    ∀ n i, (n = 0 ∨ start + i + n - 1 ≤ data.length / 8) → readUnchecked data start n i ≠ .panic
  | 0, _, _ => by simp [readUnchecked]
  | n + 1, i, h => by
    unfold readUnchecked
    obtain ⟨x, hx⟩ := readWord_inFile (data := data) (w := start + i) (by omega) (by omega)
    rw [hx]
    simp only [Res.bind_ok]
    exact bind_ne_panic (readUnchecked_ne_panic h1 n (i + 1) (by omega)) (fun _ _ => by simp)

theorem readUnchecked_ok_iff {data : Bytes} {start : Nat} : ∀ {n i : Nat} {ws : List (BitVec 64)},
    readUnchecked data start n i = .ok ws ↔ ws.length = n ∧
      ∀ k (h : k < ws.length), WordAt data (start + (i + k)) ws[k]
  | 0, i, ws => by
    simp only [readUnchecked, Res.ok.injEq]
    constructor
    · rintro rfl; simp
    · rintro ⟨h, _⟩; exact (List.length_eq_zero_iff.mp h).symm
  | n + 1, i, ws => by
    unfold readUnchecked
    constructor
    · intro h
      obtain ⟨x, hx, h⟩ := bind_eq_ok h
      obtain ⟨xs, hxs, h⟩ := bind_eq_ok h
      injection h with h
      subst h
      obtain ⟨h1, h2⟩ := readUnchecked_ok_iff.mp hxs
      refine ⟨by simp [h1], fun k hk => ?_⟩
      cases k with
      | zero => exact readWord_ok_iff.mp hx
      | succ k =>
        have := h2 k (by simpa using hk)
        rw [show i + (k + 1) = i + 1 + k by ring]
        simpa using this
    · rintro ⟨hl, hw⟩
      cases ws with
      | nil => simp at hl
      | cons x xs =>
        have h0 := hw 0 (by simp)
        simp only [Nat.add_zero, List.getElem_cons_zero] at h0
        have hrec : readUnchecked data start n (i + 1) = .ok xs := by
          refine readUnchecked_ok_iff.mpr ⟨by simpa using hl, fun k hk => ?_⟩
          have := hw (k + 1) (by simpa using hk)
          rw [show i + (k + 1) = i + 1 + k by ring] at this
          simpa using this
        rw [readWord_ok_iff.mpr h0]
        simp only [Res.bind_ok, hrec]

theorem readChebyshev_ne_panic {ck : Bool} {data : Bytes} {s : Summary} {comp : Nat}
    (h1 : 1 ≤ s.startWord) (h2 : s.endWord * 8 ≤ data.length)
    (h3 : s.startWord + 40960000000 < 2 ^ 64) : readChebyshev ck data s comp ≠ .panic := by
  unfold readChebyshev
  dsimp only
  split
  · simp
  · obtain ⟨a, ha⟩ := readWord_inFile (data := data) (w := s.endWord) (by omega) (by omega)
    obtain ⟨b, hb⟩ := readWord_inFile (data := data) (w := s.endWord - 1) (by omega) (by omega)
    obtain ⟨c, hc⟩ := readWord_inFile (data := data) (w := s.endWord - 2) (by omega) (by omega)
    obtain ⟨d, hd⟩ := readWord_inFile (data := data) (w := s.endWord - 3) (by omega) (by omega)
    rw [ha, hb, hc, hd]
    simp only [Res.bind_ok]
    split
    · simp
    · rename_i hr
      split
      · simp
      · split
        · simp
        · rename_i hn
          push Not at hr hn
          split
          · simp
          · split
            · simp
            · split
              · simp
              · have hb : fToUsize a * fToUsize b ≤ 10000000 * 4096 := Nat.mul_le_mul hn.2 hr.2
                have hp : 1 ≤ fToUsize a * fToUsize b := Nat.mul_pos (by omega) (by omega)
                simp only [addU, if_pos (show s.startWord + fToUsize a * fToUsize b < 2 ^ 64 by omega),
                  Res.bind_ok, subU,
                  if_pos (show 1 ≤ s.startWord + fToUsize a * fToUsize b by omega)]
                split
                · simp
                · exact bind_ne_panic (readUnchecked_ne_panic h1 _ _ (by omega)) (fun _ _ => by simp)

theorem readChebyshev_panics {ck : Bool} {data : Bytes} {s : Summary} {comp : Nat}
    (h1 : 4 ≤ s.endWord) (h2 : data.length < s.endWord * 8) :
    readChebyshev ck data s comp = .panic := by
  unfold readChebyshev
  dsimp only
  rw [if_neg (by omega), readWord_outside (Or.inr h2)]
  rfl

/-- What a successful read returns. -/
theorem readChebyshev_ok {ck : Bool} {data : Bytes} {s : Summary} {comp : Nat} {c : ChebSegment}
    (h3 : s.startWord + 40960000000 < 2 ^ 64) (h : readChebyshev ck data s comp = .ok c) :
    c.records.length = c.nRecords * c.rsize ∧ 1 ≤ c.nRecords ∧ 5 ≤ c.rsize ∧
      c.rsize ≤ 4096 ∧ 0 < c.intlen ∧ c.components = comp ∧
      (0 < comp → c.rsize = 2 + comp * c.ncoeff) ∧
      s.startWord + c.nRecords * c.rsize ≤ s.endWord + 1 ∧
      ∀ i (h : i < c.records.length), WordAt data (s.startWord + i) c.records[i] := by
  unfold readChebyshev at h
  dsimp only at h
  split at h
  · simp at h
  obtain ⟨a, ha, h⟩ := bind_eq_ok h
  obtain ⟨b, hb, h⟩ := bind_eq_ok h
  obtain ⟨cc, hc, h⟩ := bind_eq_ok h
  obtain ⟨d, hd, h⟩ := bind_eq_ok h
  split at h
  · simp at h
  rename_i hr
  split at h
  · simp at h
  rename_i hm
  split at h
  · simp at h
  rename_i hn
  push Not at hr hn
  split at h
  · simp at h
  split at h
  · simp at h
  rename_i hl
  split at h
  · simp at h
  have hb : fToUsize a * fToUsize b ≤ 10000000 * 4096 := Nat.mul_le_mul hn.2 hr.2
  have hp : 1 ≤ fToUsize a * fToUsize b := Nat.mul_pos (by omega) (by omega)
  simp only [addU, if_pos (show s.startWord + fToUsize a * fToUsize b < 2 ^ 64 by omega),
    Res.bind_ok, subU,
    if_pos (show 1 ≤ s.startWord + fToUsize a * fToUsize b by omega)] at h
  split at h
  · simp at h
  obtain ⟨recs, hrecs, h⟩ := bind_eq_ok h
  injection h with h
  subst h
  obtain ⟨r1, r2⟩ := readUnchecked_ok_iff.mp hrecs
  refine ⟨r1, by simp only; omega, hr.1, hr.2, not_not.mp hl, rfl, fun hcp => ?_, by simp only; omega, fun i hi => ?_⟩
  · simp only
    have hm' : (fToUsize b - 2) % comp = 0 := not_not.mp hm
    have := Nat.div_add_mod (fToUsize b - 2) comp
    rw [hm'] at this
    omega
  · have := r2 i hi
    rwa [Nat.zero_add] at this

theorem readDiscrete_panics {ck : Bool} {data : Bytes} {s : Summary} {t : Int}
    (h : s.startWord = 0) (h2 : 8 ≤ s.endWord) (h3 : s.endWord < 2 ^ 64 - 1) :
    readDiscrete ck data s t = .panic := by
  unfold readDiscrete
  rw [if_neg (by omega), if_neg (by omega)]
  dsimp only
  rw [if_neg (by omega)]
  obtain ⟨k, hk⟩ : ∃ k, s.endWord - s.startWord + 1 = k + 1 := ⟨_, rfl⟩
  rw [hk]
  unfold readUnchecked
  rw [readWord_outside (Or.inl (by omega))]
  rfl

theorem decodeDiscrete_ne_panic {ck : Bool} {words : List (BitVec 64)} {t : Int}
    (h1 : fToUsize (words.getD (words.length - 1) 0) < 2 ^ 61)
    (h2 : fToUsize (words.getD (words.length - 2) 0) < 2 ^ 64 - 1) :
    decodeDiscrete ck words t ≠ .panic := by
  unfold decodeDiscrete
  split
  · simp
  · split
    · simp
    · split
      · simp
      · split
        · simp
        · dsimp only
          split
          · simp
          · rw [if_neg (by omega)]
            split
            · simp
            · split
              · split
                · simp
                · rw [if_neg (by omega)]
                  split <;> simp
              · simp

/-- The words of a segment, read in order. -/
theorem readDiscrete_words {data : Bytes} {s : Summary} {ws : List (BitVec 64)}
    (h : readUnchecked data s.startWord (s.endWord - s.startWord + 1) 0 = .ok ws)
    (hle : s.startWord ≤ s.endWord) (h9 : 9 ≤ s.endWord - s.startWord + 1) :
    WordAt data s.endWord (ws.getD (ws.length - 1) 0) ∧
      WordAt data (s.endWord - 1) (ws.getD (ws.length - 2) 0) := by
  obtain ⟨h1, h2⟩ := readUnchecked_ok_iff.mp h
  constructor
  · have := h2 (ws.length - 1) (by omega)
    rw [List.getD_eq_getElem _ _ (by omega)]
    rwa [show s.startWord + (0 + (ws.length - 1)) = s.endWord by omega] at this
  · have := h2 (ws.length - 2) (by omega)
    rw [List.getD_eq_getElem _ _ (by omega)]
    rwa [show s.startWord + (0 + (ws.length - 2)) = s.endWord - 1 by omega] at this

theorem readDiscrete_ne_panic {ck : Bool} {data : Bytes} {s : Summary} {t : Int}
    (h1 : 1 ≤ s.startWord) (h2 : s.endWord * 8 ≤ data.length)
    (h3 : ∀ x, WordAt data s.endWord x → fToUsize x < 2 ^ 61)
    (h4 : ∀ x, WordAt data (s.endWord - 1) x → fToUsize x < 2 ^ 64 - 1) :
    readDiscrete ck data s t ≠ .panic := by
  unfold readDiscrete
  split
  · simp
  · split
    · simp
    · dsimp only
      split
      · simp
      · refine bind_ne_panic (readUnchecked_ne_panic h1 _ _ (by omega)) (fun ws hws => ?_)
        obtain ⟨a, b⟩ := readDiscrete_words hws (by omega) (by omega)
        exact decodeDiscrete_ne_panic (h3 _ a) (h4 _ b)

theorem finiteAll_some {ws : List (BitVec 64)} {qs : List ℚ} (h : finiteAll ws = some qs) :
    ws.map fVal = qs.map some := by
  induction ws generalizing qs with
  | nil => simp [finiteAll] at h; subst h; rfl
  | cons w ws ih =>
    unfold finiteAll at h
    split at h
    · rename_i q qs' hq hqs
      injection h with h
      subst h
      simp [hq, ih hqs]
    · simp at h

/-- What a successful read of a discrete segment returns: the states, then the epochs, as they
stand in the file, epochs strictly increasing, and a window size that fits the table. -/
theorem readDiscrete_ok {ck : Bool} {data : Bytes} {s : Summary} {t : Int} {d : DiscreteSegment}
    (ht : t = 9 ∨ t = 13) (h : readDiscrete ck data s t = .ok d) :
    1 ≤ d.nRecords ∧ d.states.length = d.nRecords * 6 ∧ d.epochs.length = d.nRecords ∧
      d.epochs.IsChain (· < ·) ∧
      (t = 9 → 1 ≤ d.size ∧ d.size + 1 ≤ d.nRecords) ∧
      (t = 13 → 2 ≤ d.size ∧ d.size ≤ d.nRecords) ∧
      (∀ i (h : i < d.states.length), ∃ w, WordAt data (s.startWord + i) w ∧ fVal w = some d.states[i]) ∧
      (∀ i (h : i < d.epochs.length),
        ∃ w, WordAt data (s.startWord + d.nRecords * 6 + i) w ∧ fVal w = some d.epochs[i]) := by
  unfold readDiscrete at h
  split at h
  · simp at h
  split at h
  · simp at h
  dsimp only at h
  split at h
  · simp at h
  obtain ⟨ws, hws, h⟩ := bind_eq_ok h
  obtain ⟨hl, hw⟩ := readUnchecked_ok_iff.mp hws
  unfold decodeDiscrete at h
  split at h
  · simp at h
  rename_i nq hnq
  split at h
  · simp at h
  rename_i hn1
  split at h
  · simp at h
  split at h
  · simp at h
  dsimp only at h
  split at h
  · simp at h
  split at h
  · split at h
    · simp at h
    · split at h <;> simp at h
  split at h
  · simp at h
  rename_i hfit
  split at h
  · rename_i st ep dir hst hep hdir
    split at h
    · simp at h
    rename_i hinc
    split at h
    · split at h <;> simp at h
    rename_i hdesc
    split at h
    · simp at h
    rename_i k hk
    injection h with h
    subst h
    simp only
    set n := fToUsize (ws.getD (ws.length - 1) 0) with hn
    have hnpos : 1 ≤ n := by
      rw [hn]
      unfold fToUsize fCast
      rw [hnq]
      have : 1 ≤ truncRat nq := by
        have hq : (1 : ℚ) ≤ nq := not_lt.mp hn1
        unfold truncRat
        rw [if_pos (by linarith)]
        exact Int.le_floor.mpr (by exact_mod_cast hq)
      simp only
      omega
    have e1 := finiteAll_some hst
    have e2 := finiteAll_some hep
    have l1 : st.length = n * 6 := by
      have := congrArg List.length e1
      simp at this
      omega
    have l2 : ep.length = n := by
      have := congrArg List.length e2
      simp at this
      omega
    refine ⟨hnpos, l1, l2, not_not.mp hinc, ?_, ?_, ?_, ?_⟩
    · intro h9
      unfold interpolationSize at hk
      rw [if_pos h9] at hk
      split at hk
      · simp at hk
      · injection hk with hk; omega
    · intro h13
      unfold interpolationSize at hk
      rw [if_neg (by omega)] at hk
      split at hk
      · simp at hk
      · injection hk with hk; omega
    · intro i hi
      have hi' : i < ws.length := by omega
      refine ⟨ws[i], ?_, ?_⟩
      · have := hw i hi'
        rwa [Nat.zero_add] at this
      · have := congrArg (fun l => l[i]?) e1
        simp only [List.getElem?_map] at this
        rw [List.getElem?_eq_getElem (by simp; omega), List.getElem?_eq_getElem hi] at this
        simpa using this
    · intro i hi
      have hi' : n * 6 + i < ws.length := by omega
      refine ⟨ws[n * 6 + i], ?_, ?_⟩
      · have := hw (n * 6 + i) hi'
        rwa [Nat.zero_add, ← Nat.add_assoc] at this
      · have := congrArg (fun l => l[i]?) e2
        simp only [List.getElem?_map] at this
        rw [List.getElem?_eq_getElem (by simp; omega), List.getElem?_eq_getElem hi] at this
        simpa using this
  · simp at h

end Verif.Daf
