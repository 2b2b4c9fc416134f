import Verif.Obs.Rows

/-! Epochs of observation files. -/
namespace Verif.Obs.Props
open Verif.Text Verif.Sp3 Verif.Rinex Verif.Obs
open Verif.Sp3.Props (Good plainEnv plainEnv_good rawLines_unlines words_pad words_pad_last intStr_ne intStr_ws natStr_ws i32_intStr u32_natStr fmtFixed_ne
  fmtF64_chars fmtF64_ne words_replicate)
open Verif.Rinex.Props (two_digits two_ws)

variable {T : Type}

/-! ### Epoch lines -/

/-- The seconds printed, in units of a hundred nanoseconds. -/
def ticks (c : Civil) : Nat := roundHalfEven (((c.second : ℚ) + (c.nano : ℚ) / 10 ^ 9) * 10 ^ 7)

theorem seconds_text (c : Civil) : parseFloat (fmtFixed 7 ((c.second : ℚ) + (c.nano : ℚ) / 10 ^ 9)) = some (.num ((ticks c : ℚ) / 10 ^ 7)) := by
  have h0 : (0 : ℚ) ≤ (c.second : ℚ) + (c.nano : ℚ) / 10 ^ 9 := by positivity
  rw [parseFloat_fmtFixed]
  unfold fixedValue ticks
  rw [if_neg (not_lt.mpr h0), abs_of_nonneg h0, one_mul]

theorem asU32_ticks {k : Nat} (h : k < 2 ^ 32 * 10 ^ 7) : asU32 (.num ((k : ℚ) / 10 ^ 7)) = k / 10 ^ 7 := by
  unfold asU32
  have : ⌊(k : ℚ) / 10 ^ 7⌋ = ((k / 10 ^ 7 : ℕ) : ℤ) := by
    have := Rat.floor_intCast_div_natCast (k : ℤ) (10 ^ 7)
    push_cast at this ⊢
    exact this
  simp only [this, Int.toNat_natCast]
  omega

theorem nanosOf_ticks {k : Nat} : nanosOf (.num ((k : ℚ) / 10 ^ 7)) (k / 10 ^ 7) = k % 10 ^ 7 * 100 := by
  unfold nanosOf
  simp only
  have hk := Nat.div_add_mod k (10 ^ 7)
  have : ((k : ℚ) / 10 ^ 7 - (k / 10 ^ 7 : ℕ)) * 10 ^ 9 = ((k % 10 ^ 7 * 100 : ℕ) : ℚ) := by
    have hk' : (k : ℚ) = 10 ^ 7 * ((k / 10 ^ 7 : ℕ) : ℚ) + ((k % 10 ^ 7 : ℕ) : ℚ) := by exact_mod_cast hk.symm
    push_cast
    generalize ((k / 10 ^ 7 : ℕ) : ℚ) = a at *
    generalize ((k % 10 ^ 7 : ℕ) : ℚ) = b at *
    rw [hk']
    ring
  rw [this, roundHalfUp_natCast]
  have := Nat.mod_lt k (show 0 < 10 ^ 7 by norm_num)
  omega

theorem ticks_le {c : Civil} (hs : c.second < 60) (hn : c.nano < 2 * 10 ^ 9) : ticks c ≤ 62 * 10 ^ 7 := by
  have h0 : (0 : ℚ) ≤ ((c.second : ℚ) + (c.nano : ℚ) / 10 ^ 9) * 10 ^ 7 := by positivity
  have hr := (abs_le.mp (roundHalfEven_spec _ h0)).2
  have h1 : (c.second : ℚ) ≤ 59 := by exact_mod_cast (show c.second ≤ 59 by omega)
  have h2 : (c.nano : ℚ) ≤ 2 * 10 ^ 9 := by exact_mod_cast hn.le
  have h3 : (c.nano : ℚ) / 10 ^ 9 ≤ 2 := by rw [div_le_iff₀ (by positivity)]; linarith
  have : ((ticks c : ℕ) : ℚ) ≤ ((62 * 10 ^ 7 : ℕ) : ℚ) := by
    unfold ticks
    push_cast
    linarith
  exact_mod_cast this

theorem u32_two {n : Nat} (h : n < 2 ^ 32) : u32 (two n) = some n := by
  unfold u32
  obtain ⟨h1, h2, h3⟩ := two_digits n
  rw [parseUInt_of h1 h2 (by rw [h3]; omega), h3]

theorem u64_natStr {n : Nat} (h : n < 2 ^ 64) : parseUInt (2 ^ 64 - 1) (natStr n) = some n := by
  obtain ⟨h1, h2, h3⟩ := natStr_digits n
  rw [parseUInt_of h1 h2 (by rw [h3]; omega), h3]

theorem epoch_words (c : Civil) (n : Nat) : words (epochText c n) = [['>'], intStr c.year, two c.month, two c.day, two c.hour, two c.minute,
    fmtFixed 7 ((c.second : ℚ) + (c.nano : ℚ) / 10 ^ 9), ['0'], natStr n] := by
  have t2 := fun k t => words_cons (two_digits k).2.1 (two_ws k) (show isWs ' ' = true by decide) t
  have e : epochText c n = ['>'] ++ ' ' :: (padLeft ' ' 4 (intStr c.year) ++ ' ' :: (two c.month ++ ' ' :: (two c.day ++ ' ' :: (two c.hour ++ ' ' :: (two c.minute ++ ' ' ::
    (padLeft ' ' 10 (fmtFixed 7 ((c.second : ℚ) + (c.nano : ℚ) / 10 ^ 9)) ++ ' ' :: ' ' :: (['0'] ++ ' ' :: padLeft ' ' 2 (natStr n)))))))) := by
    unfold epochText
    rw [show ("> ".toList : Str) = ['>', ' '] from rfl, show ("  0 ".toList : Str) = [' ', ' ', '0', ' '] from rfl]
    simp only [List.append_assoc, List.cons_append, List.nil_append]
  rw [e, words_cons (by simp) (by decide) (by decide), words_pad (intStr_ne _) (intStr_ws _), t2, t2, t2, t2,
    words_pad (fmtFixed_ne _ _) (fun c hc => (fmtFixed_chars _ _ c hc).2), words_ws (by decide), words_cons (by simp) (by decide) (by decide),
    words_pad_last (natStr_digits n).2.1 (natStr_ws n)]

theorem epoch_trimEnd (c : Civil) (n : Nat) : trimEnd (epochText c n ++ ['\n']) = epochText c n := by
  rw [trimEnd_ws (by decide : ∀ c ∈ ['\n'], isWs c = true)]
  have hw := trimEnd_word (s := natStr n) (t := []) (natStr_digits n).2.1 (natStr_ws n)
  have hz : trimEnd ([] : Str) = [] := rfl
  rw [hz, List.append_nil] at hw
  have key : ∃ a, epochText c n = a ++ natStr n := by
    refine ⟨"> ".toList ++ (padLeft ' ' 4 (intStr c.year) ++ ' ' :: (two c.month ++ ' ' :: (two c.day ++ ' ' :: (two c.hour ++ ' ' :: (two c.minute ++ ' ' ::
      (padLeft ' ' 10 (fmtFixed 7 ((c.second : ℚ) + (c.nano : ℚ) / 10 ^ 9)) ++ "  0 ".toList ++ List.replicate (2 - (natStr n).length) ' ')))))), ?_⟩
    unfold epochText padLeft
    simp only [List.append_assoc, List.cons_append]
  obtain ⟨a, ha⟩ := key
  rw [ha, trimEnd_keep (by rw [hw]; exact (natStr_digits n).2.1), hw]

/-- The epoch line read back: the seconds printed, or the error if they are sixty. -/
theorem epoch_written {env : Env T} {c : Civil} (y0 : -2 ^ 31 < c.year) (y1 : c.year < 2 ^ 31) (hm : c.month < 2 ^ 32) (hd : c.day < 2 ^ 32)
    (hh : c.hour < 24) (hi : c.minute < 60) (hs : c.second < 60) (hn : c.nano < 2 * 10 ^ 9) (hdate : env.dateOk c.year c.month c.day = true)
    {n : Nat} (hN : n < 2 ^ 64) :
    epochLine env (epochText c n ++ ['\n']) = if ticks c < 60 * 10 ^ 7 then
        (Res.ofOption .utc (env.ofChrono { c with second := ticks c / 10 ^ 7, nano := ticks c % 10 ^ 7 * 100 })).bind (fun t => .ok (some (t, n)))
      else .err .date := by
  have hk := ticks_le hs hn
  unfold epochLine
  dsimp only
  rw [epoch_trimEnd, if_pos (by rfl), epoch_words]
  dsimp only
  rw [i32_intStr y0 y1, u32_two hm, u32_two hd, u32_two (show c.hour < 2 ^ 32 by omega), u32_two (show c.minute < 2 ^ 32 by omega), seconds_text,
    u64_natStr hN]
  simp only [Option.getD_some]
  rw [asU32_ticks (by omega), nanosOf_ticks, hdate]
  have hmod := Nat.mod_lt (ticks c) (show 0 < 10 ^ 7 by norm_num)
  by_cases h60 : ticks c < 60 * 10 ^ 7
  · have ht : timeOk c.hour c.minute (ticks c / 10 ^ 7) (ticks c % 10 ^ 7 * 100) = true := by
      unfold timeOk
      simp only [Bool.and_eq_true, Bool.or_eq_true, decide_eq_true_eq]
      omega
    rw [ht, if_pos h60]
    simp only [Bool.and_self, if_true]
  · have ht : timeOk c.hour c.minute (ticks c / 10 ^ 7) (ticks c % 10 ^ 7 * 100) = false := by
      unfold timeOk
      rw [decide_eq_false (show ¬ (ticks c / 10 ^ 7 < 60) by omega)]
      simp only [Bool.and_false, Bool.false_and]
    rw [ht, if_neg h60]
    simp

/-- Multiples of a hundred nanoseconds are exact. -/
theorem ticks_exact {c : Civil} (h : c.nano % 100 = 0) : ticks c = c.second * 10 ^ 7 + c.nano / 100 := by
  have e : ((c.second : ℚ) + (c.nano : ℚ) / 10 ^ 9) * 10 ^ 7 = ((c.second * 10 ^ 7 + c.nano / 100 : ℕ) : ℚ) := by
    have hn : (c.nano : ℚ) = 100 * ((c.nano / 100 : ℕ) : ℚ) := by exact_mod_cast (show c.nano = 100 * (c.nano / 100) by omega)
    push_cast
    rw [hn]
    push_cast
    ring
  unfold ticks
  rw [e, roundHalfEven_natCast]

theorem epoch_exact {env : Env T} (good : Good env) {t : T} {c : Civil} (hc : env.toChrono t = some c) (h : c.nano % 100 = 0) (h1 : c.nano < 10 ^ 9)
    {n : Nat} (hN : n < 2 ^ 64) : epochLine env (epochText c n ++ ['\n']) = .ok (some (t, n)) := by
  obtain ⟨y0, y1⟩ := good.year t c hc
  obtain ⟨d0, d1, d2⟩ := good.date t c hc
  obtain ⟨t0, t1, t2⟩ := good.time t c hc
  rw [epoch_written y0 y1 (by omega) (by omega) t0 t1 t2 (by omega) d0 hN]
  have hk := ticks_exact h
  rw [if_pos (by omega)]
  have e : ({ c with second := ticks c / 10 ^ 7, nano := ticks c % 10 ^ 7 * 100 } : Civil) = c := by
    have e1 : ticks c / 10 ^ 7 = c.second := by omega
    have e2 : ticks c % 10 ^ 7 * 100 = c.nano := by omega
    rw [e1, e2]
  rw [e, good.back t c hc]
  rfl

/-! ### The body -/

/-- The satellites read back. -/
def readSats (types : Map Char (List Str)) (sats : Map Str (Map Str F64)) (ss : List Str) (acc : Map Str (Map Str F64)) : Map Str (Map Str F64) :=
  ss.foldl (fun acc s => insert acc s (readVals ((get sats s).getD []) (declared types s) [])) acc

theorem rows_read {env : Env T} {types types' : Map Char (List Str)} (ht : ∀ s, get types' s = get types s) {sats : Map Str (Map Str F64)} (more : List Str)
    (es : List (Epoch T)) (t : T) (ss : List Str) : ∀ (acc : Map Str (Map Str F64)), ss ≠ [] → (∀ s ∈ ss, Sat s ∧
      ∀ ty ∈ declared types s, ∀ v, get ((get sats s).getD []) ty = some v → InColumns v) →
    bodyLoop env types' es (some ⟨t, acc, ss.length⟩) ((ss.map (fun s => rowText types ((get sats s).getD []) s)).map (· ++ ['\n']) ++ more) =
      bodyLoop env types' (es ++ [⟨t, readSats types sats ss acc⟩]) none more := by
  induction ss with
  | nil => intro acc h; exact absurd rfl h
  | cons s ss ih =>
    intro acc _ h
    obtain ⟨hs, hv⟩ := h s (by simp)
    simp only [List.map_cons, List.cons_append]
    rw [bodyLoop, row_read hs ht hv]
    simp only [Res.bind, List.length_cons, Nat.add_sub_cancel]
    have e : readSats types sats (s :: ss) acc = readSats types sats ss (insert acc s (readVals ((get sats s).getD []) (declared types s) [])) := rfl
    rw [e]
    by_cases h0 : ss = []
    · subst h0
      rfl
    · unfold settle
      rw [if_neg (by simp [List.length_eq_zero_iff, h0])]
      exact ih _ h0 (fun x hx => h x (by simp [hx]))

theorem close_vals (vals : Map Str F64) (codes : List Str) : CloseVals codes vals (readVals vals codes []) := by
  intro code
  rw [readVals_get]
  constructor
  · intro h
    rw [if_pos h]
    cases get vals code with
    | none => simp [get_nil, NearOpt]
    | some v => simp only [Option.map_some, Option.some_or, NearOpt]; exact near_back 3 v
  · intro h
    rw [if_neg h]
    rfl

theorem sats_perm (sats : Map Str (Map Str F64)) : ((keys sats).mergeSort strLe).Perm (keys sats) := List.mergeSort_perm _ _

/-- One epoch read back. -/
theorem epoch_read {env : Env T} (good : Good env) {types types' : Map Char (List Str)} (ht : ∀ s, get types' s = get types s) {e : Epoch T} {c : Civil}
    (hc : env.toChrono e.time = some c) (h100 : c.nano % 100 = 0) (h1 : c.nano < 10 ^ 9) (hs : (∀ s ∈ keys e.sats, Sat s) ∧ e.sats.length < 2 ^ 64)
    (hv : ∀ s vals, get e.sats s = some vals → ∀ t ∈ declared types s, ∀ v, get vals t = some v → InColumns v) (more : List Str) (es : List (Epoch T)) :
    ∃ e', CloseEpoch types e e' ∧
      bodyLoop env types' es none ((epochText c e.sats.length :: epochRows types e.sats).map (· ++ ['\n']) ++ more) = bodyLoop env types' (es ++ [e']) none more := by
  have hperm := sats_perm e.sats
  refine ⟨⟨e.time, readSats types e.sats ((keys e.sats).mergeSort strLe) []⟩, ⟨rfl, ?_, ?_⟩, ?_⟩
  · intro sat hn
    show get (readSats _ _ _ _) sat = none
    unfold readSats
    rw [get_foldl (fun s => readVals ((get e.sats s).getD []) (declared types s) []), if_neg (by rw [hperm.mem_iff]; exact get_none.mp hn)]
    rfl
  · intro sat va hva
    refine ⟨readVals va (declared types sat) [], ?_, close_vals _ _⟩
    show get (readSats _ _ _ _) sat = _
    unfold readSats
    have hm : sat ∈ keys e.sats := by
      by_contra h0
      rw [get_none.mpr h0] at hva
      cases hva
    rw [get_foldl (fun s => readVals ((get e.sats s).getD []) (declared types s) []), if_pos (hperm.mem_iff.mpr hm)]
    simp only [hva, Option.getD_some]
  · rw [List.map_cons, List.cons_append, bodyLoop, epoch_exact good hc h100 h1 hs.2]
    simp only [Res.bind]
    have hlen : ((keys e.sats).mergeSort strLe).length = e.sats.length := by rw [hperm.length_eq]; simp [keys]
    by_cases h0 : e.sats.length = 0
    · have hn : (keys e.sats).mergeSort strLe = [] := List.length_eq_zero_iff.mp (by omega)
      unfold settle epochRows
      rw [if_pos h0, hn]
      rfl
    · unfold settle epochRows
      rw [if_neg h0, ← hlen]
      refine rows_read ht more es e.time _ [] (by intro hn; rw [hn] at hlen; simp at hlen; omega) ?_
      intro s hs'
      have hm := hperm.mem_iff.mp hs'
      refine ⟨hs.1 s hm, ?_⟩
      obtain ⟨vals, hg⟩ := get_some_of_mem hm
      rw [hg]
      exact hv s vals hg

theorem body_read {env : Env T} (good : Good env) {types types' : Map Char (List Str)} (ht : ∀ s, get types' s = get types s) (eps : List (Epoch T)) :
    (∀ e ∈ eps, ∃ c, env.toChrono e.time = some c ∧ c.nano % 100 = 0 ∧ c.nano < 10 ^ 9) →
    (∀ e ∈ eps, (∀ s ∈ keys e.sats, Sat s) ∧ e.sats.length < 2 ^ 64) →
    (∀ e ∈ eps, ∀ s vals, get e.sats s = some vals → ∀ t ∈ declared types s, ∀ v, get vals t = some v → InColumns v) →
    ∃ ls, bodyLines env types eps = .ok ls ∧ ∀ es, ∃ eps', List.Forall₂ (CloseEpoch types) eps eps' ∧
      bodyLoop env types' es none (ls.map (· ++ ['\n'])) = .ok (es ++ eps') := by
  induction eps with
  | nil => intro _ _ _; exact ⟨[], rfl, fun es => ⟨[], .nil, by simp [bodyLoop]⟩⟩
  | cons e eps ih =>
    intro h1 h2 h3
    obtain ⟨ls, hl, hr⟩ := ih (fun x hx => h1 x (by simp [hx])) (fun x hx => h2 x (by simp [hx])) (fun x hx => h3 x (by simp [hx]))
    obtain ⟨c, hc, h100, hn⟩ := h1 e (by simp)
    refine ⟨epochText c e.sats.length :: (epochRows types e.sats ++ ls), by unfold bodyLines; rw [hc, hl]; rfl, ?_⟩
    intro es
    obtain ⟨e', hclose, hread⟩ := epoch_read good ht hc h100 hn (h2 e (by simp)) (h3 e (by simp)) (ls.map (· ++ ['\n'])) es
    obtain ⟨eps', hf, hrest⟩ := hr (es ++ [e'])
    refine ⟨e' :: eps', .cons hclose hf, ?_⟩
    rw [← List.cons_append, List.map_append, hread, hrest]
    simp

end Verif.Obs.Props
