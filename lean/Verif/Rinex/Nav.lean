import Verif.Rinex.Read
import Verif.Sp3.Write

namespace Verif.Rinex.Props
open Verif.Text Verif.Sp3 Verif.Sp3.Props Verif.Rinex Verif.Rinex.Spec

variable {T : Type}

theorem parse_header {env : Env T} {strict : Bool} {text : Str} {header rest : List Str} (h : Header (lines text) header rest) :
    ∃ no, parseNav env strict text = loop env strict 0 no rest := by
  obtain ⟨m, hm⟩ := afterHeader_of 1 h
  exact ⟨m, by rw [parseNav, hm]⟩

theorem parse_no_header {env : Env T} {strict : Bool} {text : Str} (h : ∀ l ∈ lines text, ¬ "END OF HEADER".toList <:+: l) :
    parseNav env strict text = if strict then .err .noHeader else .ok [] := by
  rw [parseNav]
  cases hh : afterHeader 1 (lines text) with
  | none => rfl
  | some x =>
    obtain ⟨header, pre, l, h1, h2, h3, -⟩ := afterHeader_some (m := x.1) (rest := x.2) hh
    exact absurd h3 (h l (by rw [h2, h1]; simp))

/-- **C53**, no error: in permissive mode no text yields an error. -/
theorem permissive_no_error (env : Env T) (text : Str) (e : NavErr) : parseNav env false text ≠ .err e := by
  rw [parseNav]
  split
  · exact loop_no_error _ e
  · simp

/-- **C53**, without the closing line of the header nothing is read; strict mode says so. -/
theorem no_header (env : Env T) {text : Str} (h : ∀ l ∈ lines text, ¬ "END OF HEADER".toList <:+: l) :
    parseNav env false text = .ok [] ∧ parseNav env true text = .err .noHeader := by
  rw [parse_no_header h, parse_no_header h]
  exact ⟨rfl, rfl⟩

/-- **C53**, permissive. Partial: ASCII first lines, epoch numbers in range, and every body line that consists of numbers has enough of them.
Then the well-formed records are kept in order and the others dropped. Without these conditions the reader can panic
(`short_line_panics`, `non_ascii_panics`) or accept a wrong date (`wrapped_numbers_accepted`). -/
theorem permissive_keeps_partial {env : Env T} {text : Str} {header rest : List Str} {bs : List (Str × List Str)} {t : Bool}
    (hh : Header (lines text) header rest) (hs : Split rest bs t) (hb : ∀ b ∈ bs, isAscii b.1 ∧ InRange b.1 ∧ Enough b.2) :
    ∃ rs, parseNav env false text = .ok rs ∧ Kept env bs rs := by
  obtain ⟨no, e⟩ := parse_header (env := env) (strict := false) hh
  rw [e]
  exact loop_permissive hs hb no

/-- **C53**, strict. Partial: epoch numbers in range. A text is accepted exactly when it does not end inside a record and every record is well formed,
and then with the records in order. -/
theorem strict_exact_partial {env : Env T} {text : Str} {header rest : List Str} {bs : List (Str × List Str)} {t : Bool}
    (hh : Header (lines text) header rest) (hs : Split rest bs t) (hb : ∀ b ∈ bs, InRange b.1) (rs : List (Rec T)) :
    parseNav env true text = .ok rs ↔ t = false ∧ List.Forall₂ (fun b r => Reads env b.1 b.2 r) bs rs := by
  obtain ⟨no, e⟩ := parse_header (env := env) (strict := true) hh
  rw [e]
  exact loop_strict hs hb no rs

/-- Every list of lines is cut into records. -/
theorem records_exist (ls : List Str) : ∃ bs t, Split ls bs t := split_exists ls

/-- **C53**, strict mode does not panic on ASCII text. -/
theorem strict_no_panic_partial (env : Env T) {text : Str} (h : ∀ l ∈ lines text, isAscii l) : parseNav env true text ≠ .panic := by
  rw [parseNav]
  split
  · rename_i no rest hh
    obtain ⟨header, pre, l, h1, h2, -⟩ := afterHeader_some hh
    exact loop_strict_no_panic (fun x hx => h x (by rw [h2]; simp [hx])) _
  · simp

/-- **C53**, what strict mode accepts, permissive mode reads alike: for all texts. -/
theorem strict_then_permissive {env : Env T} {text : Str} {rs : List (Rec T)} (h : parseNav env true text = .ok rs) : parseNav env false text = .ok rs := by
  rw [parseNav] at h ⊢
  split at h
  · exact loop_mode _ _ h
  · simp at h

/-! ### Disagreements -/

theorem loop_panics {env : Env T} {ls : List Str} {bs : List (Str × List Str)} {t : Bool} (h : Split ls bs t) {b : Str × List Str} (hb : b ∈ bs)
    (hp : ∀ no, parseRec env false no b.1 b.2 = .panic) (no : Nat) : loop env false 0 no ls = .panic := by
  induction h generalizing no with
  | nil => simp at hb
  | other hl _ ih => rw [loop_other hl]; exact ih hb _
  | cut hl hr => simp at hb
  | record hl hr hs ih =>
    rw [loop_record hl hr]
    rcases List.mem_cons.1 hb with rfl | hb
    · rw [hp]
    · rw [ih hb]
      split <;> simp

theorem split_body {ls : List Str} {bs : List (Str × List Str)} {t : Bool} (h : Split ls bs t) {b : Str × List Str} (hb : b ∈ bs) : b.2.length = 7 := by
  induction h with
  | nil => simp at hb
  | other _ _ ih => exact ih hb
  | cut _ _ => simp at hb
  | record hl hr hs ih =>
    rcases List.mem_cons.1 hb with rfl | hb
    · exact hr
    · exact ih hb

theorem build_panic {prn : Nat} {clock : T × F64 × F64 × F64} {v1 v2 v3 v4 v5 : List F64}
    (h : v1.length < 4 ∨ v2.length < 4 ∨ v3.length < 4 ∨ v4.length < 4 ∨ v5.length < 1) : build prn clock v1 v2 v3 v4 v5 = .panic := by
  have hno : ∀ e, build prn clock v1 v2 v3 v4 v5 ≠ .err e := by
    have idxE : ∀ (v : List F64) i, (∃ x, idx v i = .ok x) ∨ idx v i = .panic := by
      intro v i
      unfold idx
      cases v[i]? <;> simp [Res.orPanic]
    have step : ∀ {β : Type} (v : List F64) (i : Nat) (f : F64 → N β), (∀ x e, f x ≠ .err e) → ∀ e, (idx v i).bind f ≠ .err e := by
      intro β v i f hf e
      rcases idxE v i with ⟨x, hx⟩ | hx <;> rw [hx]
      · exact hf x e
      · simp
    unfold build
    refine step _ _ _ fun _ => step _ _ _ fun _ => step _ _ _ fun _ => step _ _ _ fun _ => step _ _ _ fun _ => step _ _ _ fun _ => step _ _ _ fun _ =>
      step _ _ _ fun _ => step _ _ _ fun _ => step _ _ _ fun _ => step _ _ _ fun _ => step _ _ _ fun _ => step _ _ _ fun _ => step _ _ _ fun _ =>
      step _ _ _ fun _ => step _ _ _ fun _ => step _ _ _ fun _ => by simp
  cases hb : build prn clock v1 v2 v3 v4 v5 with
  | ok r =>
    rw [build_ok] at hb
    obtain ⟨-, -, ⟨m1, rfl⟩, ⟨m2, rfl⟩, ⟨m3, rfl⟩, ⟨m4, rfl⟩, ⟨m5, rfl⟩⟩ := hb
    simp only [List.length_cons] at h
    omega
  | err e => exact absurd hb (hno e)
  | panic => rfl

/-- Disagreement: in permissive mode a record whose lines consist of numbers, one of them with too few, is not dropped: the reader panics. Any file that
contains such a record, anywhere. -/
theorem short_line_panics {env : Env T} {text : Str} {header rest : List Str} {bs : List (Str × List Str)} {t : Bool} {l0 : Str} {body : List Str}
    (hh : Header (lines text) header rest) (hs : Split rest bs t) (hb : (l0, body) ∈ bs) (hin : InRange l0) {p : Nat} (hp : PrnText l0 p)
    {tm : T} {a0 a1 a2 : F64} (hc : ClockText env l0 tm a0 a1 a2) {vs : Nat → List F64} (hv : ∀ k < 5, ∃ l, body[k]? = some l ∧ Values l (vs k))
    {k : Nat} (hk : k < 5) (hshort : (vs k).length < (if k < 4 then 4 else 1)) : parseNav env false text = .panic := by
  obtain ⟨no, e⟩ := parse_header (env := env) (strict := false) hh
  rw [e]
  apply loop_panics hs hb
  intro no
  have hbody : 7 ≤ body.length := by
    have := split_body hs hb
    simp only at this
    omega
  have hr : ∃ rest, dropB l0 3 = some rest := by
    obtain ⟨rest, _, _, _, _, _, _, _, _, _, _, _, _, _, _, _, _, hr, _⟩ := hc
    exact ⟨rest, hr⟩
  obtain ⟨rest', hr⟩ := hr
  have hline : ∀ k < 5, ∀ no n, parseBody false no n (body.getD k []) = .ok (vs k) := by
    intro k hk no n
    obtain ⟨l, hl, hval⟩ := hv k hk
    rw [getD_body hbody (by omega)] at hl
    rw [hl, body_ok]
    exact ⟨hval, by simp⟩
  unfold parseRec
  simp only [prn_ok.2 hp, hr, Res.orPanic, Res.bind, (clock_ok hr hin).2 hc, hline 0 (by omega), hline 1 (by omega), hline 2 (by omega), hline 3 (by omega), hline 4 (by omega)]
  apply build_panic
  have : k = 0 ∨ k = 1 ∨ k = 2 ∨ k = 3 ∨ k = 4 := by omega
  rcases this with rfl | rfl | rfl | rfl | rfl <;> simp at hshort <;> simp [hshort]

theorem slice_boundary {l t : Str} {i j : Nat} (h : slice l i j = some t) : ∃ a b, l = a ++ b ∧ blen a = j := by
  unfold slice at h
  split at h
  · rename_i hij
    cases hd : dropB l i with
    | none => rw [hd] at h; simp at h
    | some r =>
      rw [hd] at h
      obtain ⟨a, h1, h2⟩ := dropB_spec hd
      obtain ⟨b, h3, h4⟩ := takeB_spec (show takeB r (j - i) = some t from h)
      refine ⟨a ++ t, b, by rw [h1, h3, List.append_assoc], ?_⟩
      rw [blen_append]
      omega
  · cases h

/-- Disagreement: a character of the first line of a record that straddles the third byte makes the reader panic, wherever the record is. -/
theorem non_ascii_panics {env : Env T} {text : Str} {header rest : List Str} {bs : List (Str × List Str)} {t : Bool} {l0 : Str} {body : List Str}
    (hh : Header (lines text) header rest) (hs : Split rest bs t) (hb : (l0, body) ∈ bs) (hl : ¬ ∃ a b, l0 = a ++ b ∧ blen a = 3) :
    parseNav env false text = .panic := by
  obtain ⟨no, e⟩ := parse_header (env := env) (strict := false) hh
  rw [e]
  apply loop_panics hs hb
  intro no
  have h : ∀ i, slice l0 i 3 = none := by
    intro i
    cases hh : slice l0 i 3 with
    | none => rfl
    | some t => exact absurd (slice_boundary hh) hl
  unfold parseRec parsePrn
  simp only [h]
  split <;> simp [Res.orPanic]

/-- Disagreement: the numbers of the epoch are reduced modulo 2³², so that nonsense is a date, for every date. -/
theorem wrapped_numbers_accepted (env : Env T) (y mo d h mi : Int) (s : F64) (no : Nat) (a b c e f : Int) :
    toc env (y + 2 ^ 32 * a) (mo + 2 ^ 32 * b) (d + 2 ^ 32 * c) (h + 2 ^ 32 * e) (mi + 2 ^ 32 * f) s no = toc env y mo d h mi s no := by
  have hu : ∀ z k : Int, wrapU32 (z + 2 ^ 32 * k) = wrapU32 z := by
    intro z k
    unfold wrapU32
    rw [Int.add_mul_emod_self_left]
  have hi : ∀ z k : Int, wrapI32 (z + 2 ^ 32 * k) = wrapI32 z := by
    intro z k
    unfold wrapI32
    rw [show z + 2 ^ 32 * k + 2 ^ 31 = z + 2 ^ 31 + 2 ^ 32 * k by omega, Int.add_mul_emod_self_left]
  unfold toc
  simp only [hu, hi]

/-- Disagreement: seconds that are negative or not a number are second zero. -/
theorem nonsense_seconds_are_zero (env : Env T) (y mo d h mi : Int) (no : Nat) :
    toc env y mo d h mi .nan no = toc env y mo d h mi (.num 0) no ∧
    ∀ q : ℚ, q ≤ -1 → toc env y mo d h mi (.num q) no = toc env y mo d h mi (.num 0) no := by
  have h0 : asU64 (.num 0) = 0 := by unfold asU64; simp
  have hn : nanosOf (.num 0) 0 = 0 := by unfold nanosOf; simp; unfold roundHalfUp; norm_num
  refine ⟨?_, ?_⟩
  · unfold toc
    simp only [h0, hn]
    rfl
  · intro q hq
    have h1 : asU64 (.num q) = 0 := by
      show min ⌊q⌋.toNat (2 ^ 64 - 1) = _
      have : ⌊q⌋ < 0 := by rw [Int.floor_lt]; push_cast; linarith
      omega
    have h2 : nanosOf (.num q) 0 = 0 := by
      show min (roundHalfUp ((q - ((0 : ℕ) : ℚ)) * 10 ^ 9)) (2 ^ 32 - 1) = 0
      have : roundHalfUp ((q - ((0 : ℕ) : ℚ)) * 10 ^ 9) = 0 := by
        unfold roundHalfUp
        have : ⌊(q - ((0 : ℕ) : ℚ)) * 10 ^ 9 + 1 / 2⌋ < 0 := by
          rw [Int.floor_lt]; push_cast; linarith
        omega
      rw [this]
      rfl
    unfold toc
    simp only [h0, hn, h1, h2]

/-! ### Concrete texts -/

def sample (first : String) (third : String) : Str := unlines ["x".toList, "  END OF HEADER".toList, "R01 not GPS".toList, first.toList,
  " 1 2D+1 3.456E-9 1.25 77".toList, third.toList, " 5.184E5 1d-8 1 2E-8".toList, " 0.976 250 -1.5 -8E-9".toList, " 1E-10".toList, "?".toList, "".toList]

def sampleRec : Rec Civil := ⟨1, ⟨2024, 1, 2, 3, 4, 5, 250000000⟩, .num (1 / 10000), .num (-5 / 1000000000000), .num 0, .num 1, .num 20, .num (3456 / 1000000000000),
  .num (5 / 4), .num (1 / 2), .num (1 / 1000), .num 9, .num 5153, .num 518400, .num (1 / 100000000), .num 1, .num (2 / 100000000), .num (976 / 1000), .num 250, .num (-3 / 2),
  .num (-8 / 1000000000), .num (1 / 10000000000)⟩

example : parseNav plainEnv true (sample "G01 2024 1 2 3 4 5.25 1E-4 -5E-12 0" "0.5 1E-3 9 5153") = .ok [sampleRec] := by decide +kernel

theorem sample_range : InRange "G01 2024 1 2 3 4 5.25 1E-4 -5E-12 0".toList := by
  intro rest y mo d h mi s more Y Mo D H Mi S hr hw hY hMo hD hH hMi hS
  have e1 : dropB "G01 2024 1 2 3 4 5.25 1E-4 -5E-12 0".toList 3 = some " 2024 1 2 3 4 5.25 1E-4 -5E-12 0".toList := by decide +kernel
  have e2 : words " 2024 1 2 3 4 5.25 1E-4 -5E-12 0".toList = ["2024".toList, "1".toList, "2".toList, "3".toList, "4".toList, "5.25".toList, "1E-4".toList,
      "-5E-12".toList, "0".toList] := by decide +kernel
  rw [e1] at hr
  cases hr
  rw [e2] at hw
  simp only [List.cons.injEq] at hw
  obtain ⟨rfl, rfl, rfl, rfl, rfl, rfl, rfl⟩ := hw
  rw [show parseInt (2 ^ 63 - 1) "2024".toList = some 2024 by decide +kernel] at hY
  rw [show parseInt (2 ^ 63 - 1) "1".toList = some 1 by decide +kernel] at hMo
  rw [show parseInt (2 ^ 63 - 1) "2".toList = some 2 by decide +kernel] at hD
  rw [show parseInt (2 ^ 63 - 1) "3".toList = some 3 by decide +kernel] at hH
  rw [show parseInt (2 ^ 63 - 1) "4".toList = some 4 by decide +kernel] at hMi
  have hS' : some S = some (.num (21 / 4)) := by
    rw [← hS]
    decide +kernel
  cases hY; cases hMo; cases hD; cases hH; cases hMi; cases hS'
  exact ⟨by norm_num, by norm_num, by norm_num, by norm_num, by norm_num, 21 / 4, rfl, by norm_num, by norm_num⟩

/-- A record without its last number satisfies the hypotheses of `short_line_panics`, and those of `strict_exact_partial`. -/
example : ∃ header rest bs t, Header (lines (sample "G01 2024 1 2 3 4 5.25 1E-4 -5E-12 0" "0.5 1E-3 9")) header rest ∧ Split rest bs t ∧
    bs.map Prod.fst = ["G01 2024 1 2 3 4 5.25 1E-4 -5E-12 0".toList] ∧ (∀ b ∈ bs, InRange b.1) := by
  have e : lines (sample "G01 2024 1 2 3 4 5.25 1E-4 -5E-12 0" "0.5 1E-3 9") = ["x".toList, "  END OF HEADER".toList] ++ ("R01 not GPS".toList ::
      "G01 2024 1 2 3 4 5.25 1E-4 -5E-12 0".toList :: ([" 1 2D+1 3.456E-9 1.25 77".toList, "0.5 1E-3 9".toList, " 5.184E5 1d-8 1 2E-8".toList,
        " 0.976 250 -1.5 -8E-9".toList, " 1E-10".toList, "?".toList, "".toList] ++ [])) := by decide +kernel
  refine ⟨_, _, _, _, ⟨["x".toList], _, rfl, e, ⟨"  ".toList, [], by decide⟩, ?_⟩,
    .other (by rw [← starts_iff]; decide +kernel) (.record (by rw [← starts_iff]; decide +kernel) rfl .nil), rfl, ?_⟩
  · intro x hx
    rw [List.mem_singleton] at hx
    subst hx
    rw [← contains_iff]
    decide
  · intro b hb
    rw [List.mem_singleton] at hb
    subst hb
    exact sample_range

/-- A line with three numbers: an error in strict mode, a panic in permissive mode. -/
example : parseNav plainEnv true (sample "G01 2024 1 2 3 4 5.25 1E-4 -5E-12 0" "0.5 1E-3 9") = .err (.few 6) ∧
    parseNav plainEnv false (sample "G01 2024 1 2 3 4 5.25 1E-4 -5E-12 0" "0.5 1E-3 9") = .panic := by decide +kernel

/-- A line with a bad number is dropped. -/
example : parseNav plainEnv false (sample "G01 2024 1 2 3 4 5.25 1E-4 -5E-12 0" "0.5 1E-3 9 x") = .ok [] := by decide +kernel

/-- A degree sign in the satellite number. -/
example : parseNav plainEnv false (sample "G0° 2024 1 2 3 4 5.25 1E-4 -5E-12 0" "0.5 1E-3 9 5153") = .panic ∧
    parseNav plainEnv true (sample "G0° 2024 1 2 3 4 5.25 1E-4 -5E-12 0" "0.5 1E-3 9 5153") = .panic := by decide +kernel

/-- Disagreement: strict mode accepts month 4294967297, negative seconds and a missing number as seconds. -/
theorem strict_accepts_nonsense :
    parseNav plainEnv true (sample "G01 2024 4294967297 2 3 4 5.25 1E-4 -5E-12 0" "0.5 1E-3 9 5153") = .ok [sampleRec] ∧
    (parseNav plainEnv true (sample "G01 2024 1 2 3 4 -7 1E-4 -5E-12 0" "0.5 1E-3 9 5153")) = .ok [{ sampleRec with toc := ⟨2024, 1, 2, 3, 4, 0, 0⟩ }] ∧
    (parseNav plainEnv true (sample "G01 2024 1 2 3 4 NaN 1E-4 -5E-12 0" "0.5 1E-3 9 5153")) = .ok [{ sampleRec with toc := ⟨2024, 1, 2, 3, 4, 0, 0⟩ }] := by
  decide +kernel

end Verif.Rinex.Props
