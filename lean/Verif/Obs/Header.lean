import Verif.Obs.Body

/-! Headers of observation files. -/
namespace Verif.Obs.Props
open Verif.Text Verif.Sp3 Verif.Rinex Verif.Obs
open Verif.Sp3.Props (Good words_pad words_pad_last natStr_ws fmtF64_chars fmtF64_ne words_replicate)

variable {T : Type}

/-- A header line as the reader sees it. -/
def seen (label body : Str) : Str := padRight 60 body ++ label ++ ['\n']

abbrev sysLabel : Str := "SYS / # / OBS TYPES".toList

theorem sysLabel_tight : Tight sysLabel := by constructor <;> (intro c hc; revert c; decide)

theorem seen_body {label body : Str} (hb : blen body ≤ 60) (hl : Tight label) : bodyOf (seen label body) = body ++ List.replicate (60 - blen body) ' ' :=
  (hline_parts hb hl).2.1

theorem seen_label {label body : Str} (hb : blen body ≤ 60) (hl : Tight label) : labelOf (seen label body) = label := (hline_parts hb hl).2.2

theorem header_step {label body : Str} (hb : blen body ≤ 60) (hl : Tight label) (hne : label ≠ "END OF HEADER".toList) (h : Hdr) (ls : List Str) :
    headerLoop h none (seen label body :: ls) = (headerLine h label (body ++ List.replicate (60 - blen body) ' ')).bind (fun r => headerLoop r.1 r.2 ls) := by
  rw [headerLoop, seen_label hb hl, seen_body hb hl, if_neg hne]

/-! ### Type lists -/

theorem code_pad {t : Str} (h : Code t) : (padRight 3 t).length = 3 ∧ isAscii (padRight 3 t) ∧ '\n' ∉ padRight 3 t ∧ words (padRight 3 t) = [t] := by
  refine ⟨by rw [padRight_length]; have := h.2.1; omega, padRight_ascii (fun c hc => (h.2.2 c hc).1) _, ?_, ?_⟩
  · intro hm
    rcases List.mem_append.mp hm with hm | hm
    · have := (h.2.2 _ hm).2; revert this; decide
    · have := List.eq_of_mem_replicate hm; revert this; decide
  · unfold padRight
    rw [words_spaces, words_single h.1 (fun c hc => (h.2.2 c hc).2)]

/-- The line being filled after `i` codes. -/
structure Room (i : Nat) (body : Str) : Prop where
  ascii : isAscii body
  noFeed : '\n' ∉ body
  size : (i = 0 ∧ body.length = 6) ∨ (0 < i ∧ body.length = 6 + 4 * ((i - 1) % 13 + 1))

theorem Room.le {i : Nat} {body : Str} (h : Room i body) : blen body ≤ 60 := by
  rw [blen_ascii h.ascii]
  rcases h.size with ⟨_, h⟩ | ⟨_, h⟩ <;> omega

theorem room_next {i : Nat} {body t : Str} (h : Room i body) (ht : Code t) (hi : ¬ (0 < i ∧ i % 13 = 0)) : Room (i + 1) (body ++ ' ' :: padRight 3 t) := by
  obtain ⟨l, a, n, _⟩ := code_pad ht
  refine ⟨isAscii_append.mpr ⟨h.ascii, isAscii_cons.mpr ⟨by decide, a⟩⟩, ?_, Or.inr ⟨by omega, ?_⟩⟩
  · intro hm
    rcases List.mem_append.mp hm with hm | hm
    · exact h.noFeed hm
    · rcases List.mem_cons.mp hm with hm | hm
      · revert hm; decide
      · exact n hm
  · rw [List.length_append, List.length_cons, l]
    rcases h.size with ⟨h0, h1⟩ | ⟨h0, h1⟩
    · subst h0; rw [h1]
    · rw [h1]; omega

theorem room_new {i : Nat} {t : Str} (ht : Code t) (hi : 0 < i ∧ i % 13 = 0) : Room (i + 1) (List.replicate 6 ' ' ++ ' ' :: padRight 3 t) := by
  obtain ⟨l, a, n, _⟩ := code_pad ht
  refine ⟨isAscii_append.mpr ⟨isAscii_replicate _ _ (by decide), isAscii_cons.mpr ⟨by decide, a⟩⟩, ?_, Or.inr ⟨by omega, ?_⟩⟩
  · intro hm
    rcases List.mem_append.mp hm with hm | hm
    · have := List.eq_of_mem_replicate hm; revert this; decide
    · rcases List.mem_cons.mp hm with hm | hm
      · revert hm; decide
      · exact n hm
  · rw [List.length_append, List.length_cons, l, List.length_replicate]; omega

theorem bodies_ok (ts : List Str) : ∀ (i : Nat) (body : Str), Room i body → (∀ t ∈ ts, Code t) →
    ∀ b ∈ typeBodies i body ts, blen b ≤ 60 ∧ '\n' ∉ b := by
  induction ts with
  | nil =>
    intro i body h _ b hb
    rw [typeBodies, List.mem_singleton] at hb
    subst hb
    exact ⟨h.le, h.noFeed⟩
  | cons t ts ih =>
    intro i body h ht b hb
    rw [typeBodies] at hb
    by_cases hi : 0 < i ∧ i % 13 = 0
    · rw [if_pos hi] at hb
      rcases List.mem_cons.mp hb with rfl | hb
      · exact ⟨h.le, h.noFeed⟩
      · exact ih _ _ (room_new (ht t (by simp)) hi) (fun x hx => ht x (by simp [hx])) b hb
    · rw [if_neg hi] at hb
      exact ih _ _ (room_next h (ht t (by simp)) hi) (fun x hx => ht x (by simp [hx])) b hb

theorem hlines_ok {label : Str} (hl : Tight label) (bs : List Str) (h : ∀ b ∈ bs, blen b ≤ 60) : hlines label bs = .ok (bs.map (fun b => padRight 60 b ++ label)) := by
  induction bs with
  | nil => rfl
  | cons b bs ih => rw [hlines, (hline_parts (h b (by simp)) hl).1, ih (fun x hx => h x (by simp [hx]))]; rfl

/-- Continuation lines. -/
theorem cont_read (sys : Char) (h : Hdr) (more : List Str) (ts : List Str) : ∀ (i : Nat) (body : Str) (acc cs : List Str), 0 < i → Room i body →
    words body = cs → (∀ t ∈ ts, Code t) →
    headerLoop h (some ⟨sys, acc.length + cs.length + ts.length, acc⟩) ((typeBodies i body ts).map (seen sysLabel) ++ more) =
      headerLoop { h with types := insert h.types sys (acc ++ cs ++ ts) } none more := by
  induction ts with
  | nil =>
    intro i body acc cs _ hr hw _
    rw [typeBodies, List.map_singleton, List.singleton_append, headerLoop, seen_body hr.le sysLabel_tight, words_spaces, hw]
    unfold closeTypes
    simp only [List.length_append, List.length_nil, Nat.add_zero, lt_irrefl, if_false, List.append_nil]
    rw [List.take_of_length_le (by simp)]
  | cons t ts ih =>
    intro i body acc cs hi0 hr hw ht
    have htc := ht t (by simp)
    rw [typeBodies]
    by_cases hi : 0 < i ∧ i % 13 = 0
    · rw [if_pos hi, List.map_cons, List.cons_append, headerLoop, seen_body hr.le sysLabel_tight, words_spaces, hw]
      unfold closeTypes
      simp only [List.length_append, List.length_cons]
      rw [if_pos (by omega)]
      dsimp only
      have := ih (i + 1) _ (acc ++ cs) [t] (by omega) (room_new htc hi)
        (by rw [Verif.Cpf.Props.words_append (by decide), (code_pad htc).2.2.2]; rfl) (fun x hx => ht x (by simp [hx]))
      rw [show (acc ++ cs).length + [t].length + ts.length = acc.length + cs.length + (ts.length + 1) by
        simp only [List.length_append, List.length_cons, List.length_nil]; omega] at this
      rw [this]
      simp
    · rw [if_neg hi]
      have := ih (i + 1) _ acc (cs ++ [t]) (by omega) (room_next hr htc hi)
        (by rw [Verif.Cpf.Props.words_append (by decide), (code_pad htc).2.2.2, hw]) (fun x hx => ht x (by simp [hx]))
      rw [show acc.length + (cs ++ [t]).length + ts.length = acc.length + cs.length + (t :: ts).length by
        simp only [List.length_append, List.length_cons, List.length_nil]; omega] at this
      rw [this]
      simp

/-- The first line of a type list. -/
theorem typesLine_read {sys : Char} (hs : sys.isAlpha = true) (hsa : sys.toNat < 128) {count : Nat} (hc : count ≤ 99999) {x : Str} (hx : isAscii x)
    (hx0 : x = [] ∨ ∃ y, x = ' ' :: y) {n : Nat} (hn : 0 < n) (h : Hdr) :
    typesLine h (sys :: (padLeft ' ' 5 (natStr count) ++ x) ++ List.replicate n ' ') = .ok (closeTypes h ⟨sys, count, words x⟩) := by
  have hlen : (padLeft ' ' 5 (natStr count)).length = 5 := by
    rw [padLeft_length]; have := natStr_length_le 4 count (by omega); omega
  obtain ⟨y, hy⟩ : ∃ y, x ++ List.replicate n ' ' = ' ' :: y := by
    rcases hx0 with h0 | ⟨y, h0⟩
    · obtain ⟨m, rfl⟩ : ∃ m, n = m + 1 := ⟨n - 1, by omega⟩
      exact ⟨List.replicate m ' ', by rw [h0, List.replicate_succ]; rfl⟩
    · exact ⟨y ++ List.replicate n ' ', by rw [h0]; rfl⟩
  have hyw : words y = words x := by
    have := words_spaces x n
    rw [hy, words_ws (by decide)] at this
    exact this
  have hya : isAscii y := by
    have : isAscii (x ++ List.replicate n ' ') := isAscii_append.mpr ⟨hx, isAscii_replicate _ _ (by decide)⟩
    rw [hy] at this
    exact (isAscii_cons.mp this).2
  have hpa : isAscii (padLeft ' ' 5 (natStr count)) := padLeft_ascii (all_digit_ascii (natStr_digits count).1) _ (by decide) _
  have e : sys :: (padLeft ' ' 5 (natStr count) ++ x) ++ List.replicate n ' ' = sys :: (padLeft ' ' 5 (natStr count) ++ ' ' :: y) := by
    rw [List.cons_append, List.append_assoc, hy]
  rw [e]
  unfold typesLine
  dsimp only
  rw [if_pos hs]
  have hs1 : slice (sys :: (padLeft ' ' 5 (natStr count) ++ ' ' :: y)) 1 6 = some (padLeft ' ' 5 (natStr count)) := by
    refine slice_mid (a := [sys]) (b := padLeft ' ' 5 (natStr count)) (c := ' ' :: y) ?_ rfl (by omega)
    exact isAscii_append.mpr ⟨isAscii_cons.mpr ⟨hsa, by intro c hc; cases hc⟩, isAscii_append.mpr ⟨hpa, isAscii_cons.mpr ⟨by decide, hya⟩⟩⟩
  have hs2 : dropB (sys :: (padLeft ' ' 5 (natStr count) ++ ' ' :: y)) 7 = some y := by
    have hb : blen (sys :: (padLeft ' ' 5 (natStr count) ++ [' '])) = 7 := by
      rw [blen_ascii (isAscii_cons.mpr ⟨hsa, isAscii_append.mpr ⟨hpa, isAscii_cons.mpr ⟨by decide, by intro c hc; cases hc⟩⟩⟩), List.length_cons,
        List.length_append, hlen]
      rfl
    have := Verif.Sp3.Props.dropB_append (sys :: (padLeft ' ' 5 (natStr count) ++ [' '])) y
    rw [hb] at this
    rw [← this]
    congr 1
    simp
  rw [hs1, hs2]
  simp only [Res.orPanic, Res.bind]
  have hd := natStr_digits count
  rw [trim_padLeft (all_digit_tight hd.1), u64_natStr (by omega), Option.getD_some, hyw]

theorem alpha_ascii {c : Char} (h : c.isAlpha = true) : c.toNat < 128 := by
  unfold Char.isAlpha Char.isUpper Char.isLower at h
  simp only [Bool.or_eq_true, Bool.and_eq_true, decide_eq_true_eq] at h
  have e : c.toNat = c.val.toNat := rfl
  rw [e]
  rcases h with h | h
  · have := h.2
    have : c.val.toNat ≤ 90 := UInt32.le_iff_toNat_le.mp this
    omega
  · have := h.2
    have : c.val.toNat ≤ 122 := UInt32.le_iff_toNat_le.mp this
    omega

theorem first_read {sys : Char} (hs : sys.isAlpha = true) (h : Hdr) (more : List Str) (ts : List Str) : ∀ (i : Nat) (x : Str) (cs : List Str), i ≤ 13 →
    Room i (sys :: (padLeft ' ' 5 (natStr (cs.length + ts.length)) ++ x)) → isAscii x → (x = [] ∨ ∃ y, x = ' ' :: y) →
    words x = cs → cs.length = i → cs.length + ts.length ≤ 99999 → (∀ t ∈ ts, Code t) →
    headerLoop h none ((typeBodies i (sys :: (padLeft ' ' 5 (natStr (cs.length + ts.length)) ++ x)) ts).map (seen sysLabel) ++ more) =
      headerLoop { h with types := insert h.types sys (cs ++ ts) } none more := by
  have step : ∀ {count : Nat} {x : Str} {i : Nat}, Room i (sys :: (padLeft ' ' 5 (natStr count) ++ x)) → isAscii x → (x = [] ∨ ∃ y, x = ' ' :: y) → count ≤ 99999 →
      ∀ rest, headerLoop h none (seen sysLabel (sys :: (padLeft ' ' 5 (natStr count) ++ x)) :: rest) =
        headerLoop (closeTypes h ⟨sys, count, words x⟩).1 (closeTypes h ⟨sys, count, words x⟩).2 rest := by
    intro count x i hr hx hx0 hc rest
    rw [header_step hr.le sysLabel_tight (by decide)]
    have hlt : blen (sys :: (padLeft ' ' 5 (natStr count) ++ x)) ≤ 58 := by
      rw [blen_ascii hr.ascii]; rcases hr.size with ⟨_, e⟩ | ⟨_, e⟩ <;> omega
    unfold headerLine
    rw [if_neg (by decide), if_neg (by decide), if_neg (by decide), if_pos rfl, typesLine_read hs (alpha_ascii hs) hc hx hx0 (by omega)]
    rfl
  induction ts with
  | nil =>
    intro i x cs hi hr hx hx0 hw hl hc _
    rw [typeBodies, List.map_singleton, List.singleton_append, step hr hx hx0 hc, hw]
    unfold closeTypes
    simp only [List.length_nil, Nat.add_zero, lt_irrefl, if_false, List.append_nil]
    rw [List.take_of_length_le (by simp)]
  | cons t ts ih =>
    intro i x cs hi hr hx hx0 hw hl hc ht
    have htc := ht t (by simp)
    rw [typeBodies]
    by_cases h13 : 0 < i ∧ i % 13 = 0
    · rw [if_pos h13, List.map_cons, List.cons_append, step hr hx hx0 hc, hw]
      unfold closeTypes
      simp only [List.length_cons]
      rw [if_pos (by omega)]
      dsimp only
      have := cont_read sys h more ts (i + 1) _ cs [t] (by omega) (room_new htc h13)
        (by rw [Verif.Cpf.Props.words_append (by decide), (code_pad htc).2.2.2]; rfl) (fun y hy => ht y (by simp [hy]))
      rw [show cs.length + [t].length + ts.length = cs.length + (ts.length + 1) by simp only [List.length_cons, List.length_nil]; omega] at this
      rw [this]
      simp
    · rw [if_neg h13]
      obtain ⟨p1, p2, p3, p4⟩ := code_pad htc
      have en : cs.length + (t :: ts).length = (cs ++ [t]).length + ts.length := by
        simp only [List.length_append, List.length_cons, List.length_nil]; omega
      have eb : sys :: (padLeft ' ' 5 (natStr (cs.length + (t :: ts).length)) ++ x) ++ ' ' :: padRight 3 t =
          sys :: (padLeft ' ' 5 (natStr ((cs ++ [t]).length + ts.length)) ++ (x ++ ' ' :: padRight 3 t)) := by
        rw [en]; simp
      have hroom := room_next hr htc h13
      rw [eb] at hroom ⊢
      rw [ih (i + 1) _ (cs ++ [t]) (by omega) hroom (isAscii_append.mpr ⟨hx, isAscii_cons.mpr ⟨by decide, p2⟩⟩)
        (by
          right
          rcases hx0 with rfl | ⟨y, rfl⟩
          · exact ⟨_, rfl⟩
          · exact ⟨_, rfl⟩)
        (by rw [Verif.Cpf.Props.words_append (by decide), p4, hw]) (by simp [hl]) (by rw [← en]; exact hc) (fun y hy => ht y (by simp [hy]))]
      simp

theorem room_first {sys : Char} (hs : sys.isAlpha = true) {n : Nat} (hn : n ≤ 99999) : Room 0 (sys :: (padLeft ' ' 5 (natStr n) ++ [])) := by
  have hpa : isAscii (padLeft ' ' 5 (natStr n)) := padLeft_ascii (all_digit_ascii (natStr_digits n).1) _ (by decide) _
  refine ⟨isAscii_cons.mpr ⟨alpha_ascii hs, by rw [List.append_nil]; exact hpa⟩, ?_, Or.inl ⟨rfl, ?_⟩⟩
  · intro hm
    rw [List.append_nil] at hm
    rcases List.mem_cons.mp hm with hm | hm
    · rw [← hm] at hs; revert hs; decide
    · rcases List.mem_append.mp hm with hm | hm
      · have := List.eq_of_mem_replicate hm; revert this; decide
      · have := natStr_ws n _ hm; revert this; decide
  · rw [List.append_nil, List.length_cons, padLeft_length]
    have := natStr_length_le 4 n (by omega)
    omega

/-- All type lists read back. -/
theorem types_read {types : Map Char (List Str)} (hc : ∀ s ts, get types s = some ts → ts.length ≤ 99999 ∧ ∀ t ∈ ts, Code t) (more : List Str) (ss : List Char) :
    (∀ s ∈ ss, s.isAlpha = true) → ∃ bs : List Str, typeLines types ss = .ok (bs.map (fun b => padRight 60 b ++ sysLabel)) ∧ (∀ b ∈ bs, '\n' ∉ b) ∧
      ∀ h : Hdr, headerLoop h none (bs.map (seen sysLabel) ++ more) =
        headerLoop { h with types := ss.foldl (fun acc s => insert acc s ((get types s).getD [])) h.types } none more := by
  induction ss with
  | nil => intro _; exact ⟨[], rfl, by simp, fun h => rfl⟩
  | cons s ss ih =>
    intro hs
    obtain ⟨bs, h1, h2, h3⟩ := ih (fun x hx => hs x (by simp [hx]))
    have hts : ((get types s).getD []).length ≤ 99999 ∧ ∀ t ∈ (get types s).getD [], Code t := by
      cases hg : get types s with
      | none => exact ⟨by simp, by simp⟩
      | some ts => exact hc s ts hg
    have hroom := room_first (hs s (by simp)) hts.1
    have hall := bodies_ok _ 0 _ hroom hts.2
    refine ⟨typeBodies 0 (s :: (padLeft ' ' 5 (natStr ((get types s).getD []).length) ++ [])) ((get types s).getD []) ++ bs, ?_, ?_, ?_⟩
    · rw [typeLines, h1]
      rw [List.append_nil] at hall ⊢
      rw [show "SYS / # / OBS TYPES".toList = sysLabel from rfl, hlines_ok sysLabel_tight _ (fun b hb => (hall b hb).1)]
      simp [Res.bind]
    · intro b hb
      rcases List.mem_append.mp hb with hb | hb
      · exact (hall b hb).2
      · exact h2 b hb
    · intro h
      rw [List.map_append, List.append_assoc]
      have := first_read (hs s (by simp)) h (bs.map (seen sysLabel) ++ more) ((get types s).getD []) 0 [] [] (by omega)
        (by rw [List.length_nil, Nat.zero_add]; exact hroom) (by intro c hc; cases hc) (Or.inl rfl) rfl rfl
        (by rw [List.length_nil, Nat.zero_add]; exact hts.1) hts.2
      rw [List.length_nil, Nat.zero_add] at this
      rw [this, h3]
      rfl

end Verif.Obs.Props
