import Verif.Obs.Header

/-! Claims C141-C142: observation files. -/
namespace Verif.Obs.Props
open Verif.Text Verif.Sp3 Verif.Rinex Verif.Obs
open Verif.Sp3.Props (Good plainEnv plainEnv_good rawLines_unlines words_pad words_pad_last intStr_ne intStr_ws natStr_ws fmtF64_chars fmtF64_ne words_replicate)
open Verif.Rinex.Props (two_digits two_ws)

variable {T : Type}

/-! ### No line feeds -/

theorem noFeed_of {s : Str} (h : ∀ c ∈ s, isWs c = false ∨ c = ' ') : '\n' ∉ s := by
  intro hm
  rcases h _ hm with h | h <;> revert h <;> decide

theorem pad_noFeed {w : Str} (h : ∀ c ∈ w, isWs c = false) (n : Nat) : '\n' ∉ padLeft ' ' n w := noFeed_of (Verif.Sp3.Props.pad_chars h n)

theorem row_noFeed {sat : Str} (h : Sat sat) (types : Map Char (List Str)) (vals : Map Str F64) : '\n' ∉ rowText types vals sat := by
  rw [row_eq h]
  intro hm
  rcases List.mem_append.mp hm with hm | hm
  · have := (h.2 _ hm).2; revert this; decide
  · unfold trimEnd at hm
    have hm := List.mem_reverse.mp ((List.dropWhile_sublist _).subset (List.mem_reverse.mp hm))
    obtain ⟨t, _, hm⟩ := List.mem_flatMap.mp hm
    unfold cellText at hm
    cases hg : get vals t with
    | none => rw [hg] at hm; have := List.eq_of_mem_replicate hm; revert this; decide
    | some v =>
      rw [hg] at hm
      rcases List.mem_append.mp hm with hm | hm
      · exact pad_noFeed (fun c hc => (fmtF64_chars 3 v c hc).2) _ hm
      · revert hm; decide

theorem epoch_noFeed (c : Civil) (n : Nat) : '\n' ∉ epochText c n := by
  unfold epochText
  have e1 := pad_noFeed (intStr_ws c.year) 4
  have e3 := pad_noFeed (fun d hd => (fmtFixed_chars 7 ((c.second : ℚ) + (c.nano : ℚ) / 10 ^ 9) d hd).2) 10
  have e4 := pad_noFeed (natStr_ws n) 2
  have e5 : ∀ k, '\n' ∉ two k := fun k hm => absurd (two_ws k '\n' hm) (by decide)
  simp only [List.mem_append, List.mem_cons, not_or]
  refine ⟨by decide, e1, by decide, e5 _, by decide, e5 _, by decide, e5 _, by decide, e5 _, by decide, ⟨e3, by decide⟩, e4⟩

theorem body_noFeed {env : Env T} {types : Map Char (List Str)} {eps : List (Epoch T)} {ls : List Str} (h : bodyLines env types eps = .ok ls)
    (hs : ∀ e ∈ eps, ∀ s ∈ keys e.sats, Sat s) : ∀ l ∈ ls, '\n' ∉ l := by
  induction eps generalizing ls with
  | nil => cases h; simp
  | cons e eps ih =>
    unfold bodyLines at h
    cases hc : env.toChrono e.time with
    | none => rw [hc] at h; cases h
    | some c =>
      cases hr : bodyLines env types eps with
      | ok rest =>
        rw [hc, hr] at h
        cases h
        intro l hl
        rcases List.mem_cons.mp hl with rfl | hl
        · exact epoch_noFeed _ _
        · rcases List.mem_append.mp hl with hl | hl
          · unfold epochRows at hl
            obtain ⟨s, hs', rfl⟩ := List.mem_map.mp hl
            exact row_noFeed (hs e (by simp) s ((sats_perm e.sats).mem_iff.mp hs')) _ _
          · exact ih hr (fun x hx => hs x (by simp [hx])) l hl
      | err x => rw [hc, hr] at h; cases h
      | panic => rw [hc, hr] at h; cases h

/-! ### The header -/

theorem pad_space {w : Str} {n : Nat} (h : w.length ≤ n) : padLeft ' ' (n + 1) w = ' ' :: padLeft ' ' n w := by
  unfold padLeft
  rw [show n + 1 - w.length = (n - w.length) + 1 by omega, List.replicate_succ]
  rfl

theorem approx_words {a b c : ℚ} (hb : |b| ≤ 9999999) (hc : |c| ≤ 9999999) :
    words (padLeft ' ' 14 (fmtFixed 4 a) ++ (padLeft ' ' 14 (fmtFixed 4 b) ++ padLeft ' ' 14 (fmtFixed 4 c))) = [fmtFixed 4 a, fmtFixed 4 b, fmtFixed 4 c] := by
  have hw : ∀ q : ℚ, ∀ d ∈ fmtFixed 4 q, isWs d = false := fun q d hd => (fmtFixed_chars 4 q d hd).2
  have hl : ∀ q : ℚ, |q| ≤ 9999999 → (fmtFixed 4 q).length ≤ 13 := by
    intro q hq
    have := fmtFixed_length (p := 4) (w := 6) (q := q) (by norm_num; linarith)
    split_ifs at this <;> omega
  have hne := Verif.Sp3.Props.fmtFixed_ne
  rw [pad_space (hl b hb), pad_space (hl c hc), List.cons_append, words_pad (hne 4 a) (hw a), words_pad (hne 4 b) (hw b), words_pad_last (hne 4 c) (hw c)]

theorem approx_size {a b c : ℚ} (ha : |a| ≤ 9999999) (hb : |b| ≤ 9999999) (hc : |c| ≤ 9999999) :
    blen (padLeft ' ' 14 (fmtFixed 4 a) ++ (padLeft ' ' 14 (fmtFixed 4 b) ++ padLeft ' ' 14 (fmtFixed 4 c))) = 42 := by
  have hl : ∀ q : ℚ, |q| ≤ 9999999 → blen (padLeft ' ' 14 (fmtFixed 4 q)) = 14 := by
    intro q hq
    rw [blen_ascii (padLeft_ascii (fmtFixed_ascii 4 q) _ (by decide) _), padLeft_length]
    have := fmtFixed_length (p := 4) (w := 6) (q := q) (by norm_num; linarith)
    split_ifs at this <;> omega
  rw [blen_append, blen_append, hl a ha, hl b hb, hl c hc]

theorem label_tight (l : Str) (h : ∀ c, (l.head? = some c ∨ l.getLast? = some c) → isWs c = false) : Tight l := ⟨fun c hc => h c (Or.inl hc), fun c hc => h c (Or.inr hc)⟩

theorem tight_decide {l : Str} {a b : Char} (h1 : l.head? = some a) (h2 : l.getLast? = some b) (ha : isWs a = false) (hb : isWs b = false) : Tight l := by
  constructor <;> intro c hc
  · rw [h1] at hc; cases hc; exact ha
  · rw [h2] at hc; cases hc; exact hb

theorem hline_noFeed {b label : Str} (hb : '\n' ∉ b) (hl : '\n' ∉ label) : '\n' ∉ padRight 60 b ++ label := by
  intro hm
  rcases List.mem_append.mp hm with hm | hm
  · rcases List.mem_append.mp hm with hm | hm
    · exact hb hm
    · have := List.eq_of_mem_replicate hm; revert this; decide
  · exact hl hm

/-- The header read back. -/
theorem header_read {env : Env T} {o : Obs T} (h : Fits env o) : ∃ ls, headerLines o = .ok ls ∧ (∀ l ∈ ls, '\n' ∉ l) ∧
    ∀ more, ∃ hd : Hdr, headerLoop ⟨[], none, none, []⟩ none (ls.map (· ++ ['\n']) ++ more) = .ok (hd, more) ∧ hd.marker = o.marker ∧
      (match o.approx, hd.approx with
        | some (x, y, z), some (x', y', z') => Near 4 x x' ∧ Near 4 y y' ∧ Near 4 z z'
        | none, none => True
        | _, _ => False) ∧ NearOpt 3 o.interval hd.interval ∧ ∀ s, get hd.types s = get o.types s := by
  obtain ⟨m1, m2, m3⟩ := h.marker
  have tv : Tight "RINEX VERSION / TYPE".toList := tight_decide (a := 'R') (b := 'E') (by decide) (by decide) (by decide) (by decide)
  have tm : Tight "MARKER NAME".toList := tight_decide (a := 'M') (b := 'E') (by decide) (by decide) (by decide) (by decide)
  have ta : Tight "APPROX POSITION XYZ".toList := tight_decide (a := 'A') (b := 'Z') (by decide) (by decide) (by decide) (by decide)
  have ti : Tight "INTERVAL".toList := tight_decide (a := 'I') (b := 'L') (by decide) (by decide) (by decide) (by decide)
  have te : Tight "END OF HEADER".toList := tight_decide (a := 'E') (b := 'R') (by decide) (by decide) (by decide) (by decide)
  have bv : blen "     3.04           OBSERVATION DATA    M (MIXED)".toList ≤ 60 := by decide
  have p1 := (hline_parts bv tv).1
  have p2 := (hline_parts m3 tm).1
  have p6 := (hline_parts (body := []) (by decide) te).1
  -- the position
  obtain ⟨la, ha1, ha2, ha3⟩ : ∃ la : List Str, approxLines o.approx = .ok la ∧ (∀ l ∈ la, '\n' ∉ l) ∧ ∀ (hd : Hdr) (more : List Str), hd.approx = none →
        ∃ ap, headerLoop hd none (la.map (· ++ ['\n']) ++ more) = headerLoop { hd with approx := ap } none more ∧
        (match o.approx, ap with
        | some (x, y, z), some (x', y', z') => Near 4 x x' ∧ Near 4 y y' ∧ Near 4 z z'
        | none, none => True
        | _, _ => False) := by
    cases hap : o.approx with
    | none => exact ⟨[], rfl, by simp, fun hd more hn => ⟨none, by rw [← hn]; rfl, trivial⟩⟩
    | some w =>
      obtain ⟨x, y, z⟩ := w
      obtain ⟨a, b, c, rfl, rfl, rfl, ba, bb, bc⟩ := h.approx x y z hap
      have hsz := approx_size ba bb bc
      refine ⟨_, hlines_ok ta _ (by intro l hl; rw [List.mem_singleton] at hl; subst hl; exact le_trans (le_of_eq hsz) (by norm_num)), ?_, ?_⟩
      · intro l hl
        rw [List.map_singleton, List.mem_singleton] at hl
        subst hl
        refine hline_noFeed ?_ (by decide)
        have e : ∀ q : ℚ, '\n' ∉ padLeft ' ' 14 (fmtF64 4 (.num q)) := fun q => pad_noFeed (fun d hd => (fmtF64_chars 4 _ d hd).2) _
        simp only [List.mem_append, not_or]
        exact ⟨e a, e b, e c⟩
      · intro hd more _
        refine ⟨some (back 4 (.num a), back 4 (.num b), back 4 (.num c)), ?_, near_back _ _, near_back _ _, near_back _ _⟩
        simp only [List.map_cons, List.map_nil, List.cons_append, List.nil_append]
        have := header_step (label := "APPROX POSITION XYZ".toList)
          (body := padLeft ' ' 14 (fmtFixed 4 a) ++ (padLeft ' ' 14 (fmtFixed 4 b) ++ padLeft ' ' 14 (fmtFixed 4 c))) (by rw [hsz]; norm_num) ta (by decide) hd more
        refine this.trans ?_
        unfold headerLine
        rw [if_neg (by decide), if_pos rfl]
        unfold approxLine
        rw [words_spaces, approx_words bb bc]
        have e : ∀ q : ℚ, parseFloat (fmtFixed 4 q) = some (back 4 (.num q)) := fun q => parse_back 4 (.num q)
        simp only [List.filterMap_cons, e, List.filterMap_nil, Res.bind]
  -- the interval
  obtain ⟨li, hi1, hi2, hi3⟩ : ∃ li : List Str, intervalLines o.interval = .ok li ∧ (∀ l ∈ li, '\n' ∉ l) ∧ ∀ (hd : Hdr) (more : List Str), hd.interval = none →
        ∃ iv, headerLoop hd none (li.map (· ++ ['\n']) ++ more) = headerLoop { hd with interval := iv } none more ∧ NearOpt 3 o.interval iv := by
    cases hiv : o.interval with
    | none => exact ⟨[], rfl, by simp, fun hd more hn => ⟨none, by rw [← hn]; rfl, trivial⟩⟩
    | some v =>
      obtain ⟨q, rfl, hq⟩ := h.interval v hiv
      have hsz : blen (padLeft ' ' 10 (fmtF64 3 (.num q))) ≤ 60 := by
        show blen (padLeft ' ' 10 (fmtFixed 3 q)) ≤ 60
        rw [blen_ascii (padLeft_ascii (fmtFixed_ascii 3 q) _ (by decide) _), padLeft_length]
        have := fmtFixed_length (p := 3) (w := 40) (q := q) (le_trans hq (by norm_num))
        split_ifs at this <;> omega
      refine ⟨_, hlines_ok ti _ (by intro l hl; rw [List.mem_singleton] at hl; subst hl; exact hsz), ?_, ?_⟩
      · intro l hl
        rw [List.map_singleton, List.mem_singleton] at hl
        subst hl
        exact hline_noFeed (pad_noFeed (fun d hd => (fmtF64_chars 3 _ d hd).2) _) (by decide)
      · intro hd more _
        refine ⟨some (back 3 (.num q)), ?_, near_back 3 (.num q)⟩
        simp only [List.map_cons, List.map_nil, List.cons_append, List.nil_append]
        refine (header_step (label := "INTERVAL".toList) hsz ti (by decide) hd more).trans ?_
        unfold headerLine
        rw [if_neg (by decide), if_neg (by decide), if_pos rfl, words_spaces, words_pad_last (fmtF64_ne 3 _) (fun d hd => (fmtF64_chars 3 _ d hd).2)]
        simp only [List.head?_cons, Option.bind_some, parse_back, Res.bind]
  have hperm : ((keys o.types).mergeSort charLe).Perm (keys o.types) := List.mergeSort_perm _ _
  have hal : ∀ s ∈ (keys o.types).mergeSort charLe, s.isAlpha = true := fun s hs => h.systems.2 s (hperm.mem_iff.mp hs)
  obtain ⟨bs, ht1, ht2, _⟩ := types_read h.codes [] _ hal
  refine ⟨_, by unfold headerLines; rw [p1, p2, ha1, ht1, hi1, p6]; rfl, ?_, ?_⟩
  · intro l hl
    simp only [List.mem_cons, List.mem_append, List.mem_map, List.not_mem_nil, or_false] at hl
    rcases hl with rfl | rfl | hl | ⟨b, hb, rfl⟩ | hl | rfl
    · exact hline_noFeed (by decide) (by decide)
    · exact hline_noFeed m2 (by decide)
    · exact ha2 l hl
    · exact hline_noFeed (ht2 b hb) (by decide)
    · exact hi2 l hl
    · exact hline_noFeed (by decide) (by decide)
  · intro more
    have expand : ((padRight 60 "     3.04           OBSERVATION DATA    M (MIXED)".toList ++ "RINEX VERSION / TYPE".toList) ::
        (padRight 60 o.marker ++ "MARKER NAME".toList) :: (la ++ (bs.map (fun b => padRight 60 b ++ sysLabel) ++
          (li ++ [padRight 60 [] ++ "END OF HEADER".toList])))).map (· ++ ['\n']) ++ more =
        seen "RINEX VERSION / TYPE".toList "     3.04           OBSERVATION DATA    M (MIXED)".toList :: seen "MARKER NAME".toList o.marker ::
          (la.map (· ++ ['\n']) ++ (bs.map (seen sysLabel) ++ (li.map (· ++ ['\n']) ++ (seen "END OF HEADER".toList [] :: more)))) := by
      have e : (bs.map (fun b => padRight 60 b ++ sysLabel)).map (· ++ ['\n']) = bs.map (seen sysLabel) := by
        rw [List.map_map]; rfl
      rw [List.map_cons, List.map_cons, List.map_append, List.map_append, List.map_append, e, List.map_singleton, List.cons_append, List.cons_append]
      simp only [List.append_assoc, seen, List.cons_append, List.nil_append]
    rw [expand, header_step bv tv (by decide)]
    unfold headerLine
    rw [if_neg (by decide), if_neg (by decide), if_neg (by decide), if_neg (by decide)]
    simp only [Res.bind]
    rw [header_step m3 tm (by decide)]
    unfold headerLine
    rw [if_pos rfl]
    have hmark : trim (o.marker ++ List.replicate (60 - blen o.marker) ' ') = o.marker := by
      unfold trim
      by_cases h0 : o.marker = []
      · rw [h0, List.nil_append]
        have e : trimStart (List.replicate (60 - blen ([] : Str)) ' ') = [] := by decide
        rw [e]; rfl
      · have : trimStart (o.marker ++ List.replicate (60 - blen o.marker) ' ') = o.marker ++ List.replicate (60 - blen o.marker) ' ' := by
          apply trimStart_tight
          intro c hc
          apply m1.1 c
          cases hm : o.marker with
          | nil => exact absurd hm h0
          | cons a b => rw [hm] at hc; exact hc
        rw [this, trimEnd_ws (by intro c hc; rw [List.eq_of_mem_replicate hc]; decide), trimEnd_tight m1.2]
    simp only [Res.bind, hmark]
    obtain ⟨ap, ea, na⟩ := ha3 ⟨o.marker, none, none, []⟩ (bs.map (seen sysLabel) ++ (li.map (· ++ ['\n']) ++ (seen "END OF HEADER".toList [] :: more))) rfl
    rw [ea]
    obtain ⟨bs', ht1', _, ht3⟩ := types_read h.codes (li.map (· ++ ['\n']) ++ (seen "END OF HEADER".toList [] :: more)) _ hal
    have hbs : bs'.map (seen sysLabel) = bs.map (seen sysLabel) := by
      rw [ht1] at ht1'
      have e := Res.ok.inj ht1'
      have := congrArg (List.map (· ++ ['\n'])) e
      rw [List.map_map, List.map_map] at this
      exact this.symm
    rw [← hbs, ht3]
    obtain ⟨iv, ei, ni⟩ := hi3 ⟨o.marker, ap, none, ((keys o.types).mergeSort charLe).foldl (fun acc s => insert acc s ((get o.types s).getD [])) []⟩
      (seen "END OF HEADER".toList [] :: more) rfl
    refine ⟨⟨o.marker, ap, iv, ((keys o.types).mergeSort charLe).foldl (fun acc s => insert acc s ((get o.types s).getD [])) []⟩, ?_, rfl, na, ni, ?_⟩
    · refine ei.trans ?_
      rw [headerLoop, seen_label (by decide) te, if_pos rfl]
    · intro s
      show get (List.foldl _ _ _) s = _
      rw [get_foldl (fun s => (get o.types s).getD [])]
      by_cases hs : s ∈ keys o.types
      · rw [if_pos (hperm.mem_iff.mpr hs)]
        obtain ⟨ts, ht⟩ := get_some_of_mem hs
        rw [ht]; rfl
      · rw [if_neg (by rw [hperm.mem_iff]; exact hs), get_none.mpr hs]
        rfl

/-! ### Claim C141 -/

/-- C141. A file that fits its columns is written and read back: the marker, the codes, the times and the satellites as they were, the
position, the interval and the values to half of their last decimal. -/
theorem write_read_partial {env : Env T} (good : Good env) {o : Obs T} (h : Fits env o) :
    ∃ text o', writeObs env o = .ok text ∧ readObs env text = .ok o' ∧ CloseObs o o' := by
  obtain ⟨hs, w1, n1, r1⟩ := header_read h
  have hsat : ∀ e ∈ o.epochs, (∀ s ∈ keys e.sats, Sat s) ∧ e.sats.length < 2 ^ 64 := fun e he => (h.sats e he).2
  obtain ⟨bs, w2, _⟩ := body_read good (fun s => rfl) o.epochs h.times hsat h.values
  obtain ⟨hd, e1, e2, e3, e4, e5⟩ := r1 (bs.map (· ++ ['\n']))
  obtain ⟨bs', w2', r2⟩ := body_read good e5 o.epochs h.times hsat h.values
  rw [w2] at w2'
  cases w2'
  obtain ⟨eps, c2, e6⟩ := r2 []
  have n2 := body_noFeed w2 (fun e he => (hsat e he).1)
  refine ⟨unlines (hs ++ bs), ⟨hd.marker, hd.approx, hd.interval, hd.types, eps⟩, by unfold writeObs; rw [w1, w2]; rfl, ?_, ⟨e2, e3, e4, e5, c2⟩⟩
  unfold readObs
  rw [rawLines_unlines (by
    intro l hl
    rcases List.mem_append.mp hl with hl | hl
    · exact n1 l hl
    · exact n2 l hl), List.map_append, e1]
  simp only [Res.bind]
  rw [e6]
  rfl

/-! ### What does not come back -/

/-- C141, finding. An epoch less than fifty nanoseconds before a full minute (or in a leap second) is printed with sixty seconds; the reader
refuses the line, and with it the file. -/
theorem sixty_refused {env : Env T} (good : Good env) {t : T} {c : Civil} (hc : env.toChrono t = some c) (hs : c.second = 59) (hn : 999999951 ≤ c.nano)
    (hn2 : c.nano < 2 * 10 ^ 9) {n : Nat} (hN : n < 2 ^ 64) : epochLine env (epochText c n ++ ['\n']) = .err .date := by
  obtain ⟨y0, y1⟩ := good.year t c hc
  obtain ⟨d0, d1, d2⟩ := good.date t c hc
  obtain ⟨t0, t1, t2⟩ := good.time t c hc
  rw [epoch_written y0 y1 (by omega) (by omega) t0 t1 t2 hn2 d0 hN, if_neg]
  have h0 : (0 : ℚ) ≤ ((c.second : ℚ) + (c.nano : ℚ) / 10 ^ 9) * 10 ^ 7 := by positivity
  have hr := (abs_le.mp (roundHalfEven_spec _ h0)).1
  have h1 : (999999951 : ℚ) ≤ c.nano := by exact_mod_cast hn
  have : (60 * 10 ^ 7 - 1 : ℚ) < (ticks c : ℚ) := by
    unfold ticks
    rw [hs] at hr ⊢
    push_cast at hr ⊢
    linarith
  have : 60 * 10 ^ 7 - 1 < ticks c := by
    have h2 : ((60 * 10 ^ 7 - 1 : ℕ) : ℚ) < (ticks c : ℚ) := by norm_num at this ⊢; linarith
    exact_mod_cast h2
  omega

/-- A file with one satellite. -/
def oneSat (types : List (Char × List Str)) (t : Civil) (vals : List (String × ℚ)) : Obs Civil :=
  ⟨"TINY".toList, none, none, types, [⟨t, [("G01".toList, vals.map (fun p => (p.1.toList, F64.num p.2)))]⟩]⟩

instance : DecidableEq (Map Str F64) := inferInstance
instance : DecidableEq (Str × Map Str F64) := inferInstance
instance : DecidableEq (Map Str (Map Str F64)) := instDecidableEqList
instance : DecidableEq (List (Map Str (Map Str F64))) := instDecidableEqList

/-- What reading back a written file gives for the epochs. -/
def again (o : Obs Civil) : Res Err (List (Map Str (Map Str F64))) :=
  (writeObs plainEnv o).bind (fun t => (readObs plainEnv t).bind (fun o' => .ok (o'.epochs.map (·.sats))))

/-- C141, finding. The whole file is refused. -/
theorem sixty_file : again (oneSat [('G', ["C1C".toList])] ⟨2024, 1, 1, 0, 0, 59, 999999960⟩ [("C1C", 20100000)]) = .err .date := by decide +kernel

/-- C141, finding. A value wider than fourteen columns is cut, here to a thousandth, and the value after it is lost. -/
theorem wide_value_cut : again (oneSat [('G', ["L1C".toList, "C1C".toList])] ⟨2024, 1, 1, 0, 0, 0, 0⟩ [("L1C", -1234567890123456), ("C1C", 20100000 + 456 / 1000)]) =
    .ok [[("G01".toList, [("L1C".toList, .num (-1234567890123))])]] := by decide +kernel

/-- C141, finding. The values of a satellite whose system has no code list are lost. -/
theorem undeclared_lost : again (oneSat [('R', ["C1C".toList])] ⟨2024, 1, 1, 0, 0, 0, 0⟩ [("C1C", 20100000)]) = .ok [[("G01".toList, [])]] := by decide +kernel

/-- C141, finding. A marker of more than sixty bytes is cut, or stops the program if the sixtieth byte is inside a character. -/
theorem long_marker : hline (List.replicate 61 'A') "MARKER NAME".toList = .ok (List.replicate 60 'A' ++ "MARKER NAME".toList) ∧
    hline (List.replicate 59 'A' ++ ['é', 'e']) "MARKER NAME".toList = .panic := by decide +kernel

/-! ### Claim C142 -/

theorem charLe_trans : ∀ a b c : Char, charLe a b = true → charLe b c = true → charLe a c = true := by
  intro a b c; unfold charLe; simp only [decide_eq_true_eq]; omega

theorem charLe_total : ∀ a b : Char, (charLe a b || charLe b a) = true := by
  intro a b; unfold charLe; simp only [Bool.or_eq_true, decide_eq_true_eq]; omega

theorem char_eq {a b : Char} (h : a.toNat = b.toNat) : a = b := by
  apply Char.ext
  exact UInt32.toNat_inj.mp h

theorem strLe_trans : ∀ a b c : Str, strLe a b = true → strLe b c = true → strLe a c = true := by
  intro a
  induction a with
  | nil => intro b c _ _; cases c <;> rfl
  | cons x a ih =>
    intro b c h1 h2
    cases b with
    | nil => cases h1
    | cons y b =>
      cases c with
      | nil => cases h2
      | cons z c =>
        simp only [strLe, Bool.or_eq_true, Bool.and_eq_true, decide_eq_true_eq] at h1 h2 ⊢
        rcases h1 with h1 | ⟨h1, h1'⟩ <;> rcases h2 with h2 | ⟨h2, h2'⟩
        · left; omega
        · left; omega
        · left; omega
        · right; exact ⟨by omega, ih b c h1' h2'⟩

theorem strLe_total : ∀ a b : Str, (strLe a b || strLe b a) = true := by
  intro a
  induction a with
  | nil => intro b; cases b <;> rfl
  | cons x a ih =>
    intro b
    cases b with
    | nil => rfl
    | cons y b =>
      have := ih b
      simp only [strLe, Bool.or_eq_true, Bool.and_eq_true, decide_eq_true_eq] at this ⊢
      rcases this with h | h
      · rcases Nat.lt_trichotomy x.toNat y.toNat with h1 | h1 | h1
        · exact Or.inl (Or.inl h1)
        · exact Or.inl (Or.inr ⟨h1, h⟩)
        · exact Or.inr (Or.inl h1)
      · rcases Nat.lt_trichotomy x.toNat y.toNat with h1 | h1 | h1
        · exact Or.inl (Or.inl h1)
        · exact Or.inr (Or.inr ⟨h1.symm, h⟩)
        · exact Or.inr (Or.inl h1)

theorem strLe_antisymm : ∀ a b : Str, strLe a b = true → strLe b a = true → a = b := by
  intro a
  induction a with
  | nil => intro b _ h; cases b with
    | nil => rfl
    | cons y b => cases h
  | cons x a ih =>
    intro b h1 h2
    cases b with
    | nil => cases h1
    | cons y b =>
      simp only [strLe, Bool.or_eq_true, Bool.and_eq_true, decide_eq_true_eq] at h1 h2
      rcases h1 with h1 | ⟨h1, h1'⟩ <;> rcases h2 with h2 | ⟨h2, h2'⟩
      · omega
      · omega
      · omega
      · rw [char_eq h1, ih b h1' h2']

theorem sort_eq {α : Type} {le : α → α → Bool} (ht : ∀ a b c, le a b = true → le b c = true → le a c = true) (hto : ∀ a b, (le a b || le b a) = true)
    (ha : ∀ a b, le a b = true → le b a = true → a = b) {l1 l2 : List α} (h : l1.Perm l2) : l1.mergeSort le = l2.mergeSort le := by
  have p1 := List.mergeSort_perm l1 le
  have p2 := List.mergeSort_perm l2 le
  exact (p1.trans (h.trans p2.symm)).eq_of_pairwise (le := fun a b => le a b = true) (fun a b _ _ => ha a b)
    (List.pairwise_mergeSort ht hto l1) (List.pairwise_mergeSort ht hto l2)

/-- The same map: the same value for every key. -/
def Same {K V : Type} [DecidableEq K] (R : V → V → Prop) (a b : Map K V) : Prop :=
  (keys a).Nodup ∧ (keys b).Nodup ∧ ∀ k, match get a k, get b k with
    | some x, some y => R x y
    | none, none => True
    | _, _ => False

theorem same_perm {K V : Type} [DecidableEq K] {R : V → V → Prop} {a b : Map K V} (h : Same R a b) : (keys a).Perm (keys b) := by
  rw [List.perm_ext_iff_of_nodup h.1 h.2.1]
  intro k
  have := h.2.2 k
  constructor
  · intro hk
    obtain ⟨v, hv⟩ := get_some_of_mem hk
    by_contra hn
    rw [hv, get_none.mpr hn] at this
    exact this
  · intro hk
    obtain ⟨v, hv⟩ := get_some_of_mem hk
    by_contra hn
    rw [hv, get_none.mpr hn] at this
    exact this

theorem same_get {K V : Type} [DecidableEq K] {a b : Map K V} (h : Same Eq a b) (k : K) : get a k = get b k := by
  have := h.2.2 k
  cases ha : get a k with
  | none =>
    cases hb : get b k with
    | none => rfl
    | some y => rw [ha, hb] at this; exact this.elim
  | some x =>
    cases hb : get b k with
    | none => rw [ha, hb] at this; exact this.elim
    | some y => rw [ha, hb] at this; rw [this]

/-- The same contents, in whatever order the maps hold them. -/
structure SameObs (a b : Obs T) : Prop where
  marker : a.marker = b.marker
  approx : a.approx = b.approx
  interval : a.interval = b.interval
  types : Same Eq a.types b.types
  epochs : List.Forall₂ (fun x y : Epoch T => x.time = y.time ∧ Same (Same Eq) x.sats y.sats) a.epochs b.epochs

theorem typeLines_congr {a b : Map Char (List Str)} (h : ∀ k, get a k = get b k) (ss : List Char) : typeLines a ss = typeLines b ss := by
  induction ss with
  | nil => rfl
  | cons s ss ih => rw [typeLines, typeLines, h, ih]

theorem row_congr {a b : Map Char (List Str)} (h : ∀ k, get a k = get b k) {x y : Map Str F64} (hv : ∀ k, get x k = get y k) (sat : Str) : rowText a x sat = rowText b y sat := by
  have : cellText x = cellText y := by funext t; unfold cellText; rw [hv]
  unfold rowText
  rw [h, this]

theorem rows_congr {a b : Map Char (List Str)} (h : ∀ k, get a k = get b k) {x y : Map Str (Map Str F64)} (hs : Same (Same Eq) x y) : epochRows a x = epochRows b y := by
  unfold epochRows
  rw [sort_eq strLe_trans strLe_total strLe_antisymm (same_perm hs)]
  apply List.map_congr_left
  intro s _
  apply row_congr h
  have := hs.2.2 s
  cases hx : get x s with
  | none =>
    cases hy : get y s with
    | none => intro k; rfl
    | some v => rw [hx, hy] at this; exact this.elim
  | some u =>
    cases hy : get y s with
    | none => rw [hx, hy] at this; exact this.elim
    | some v => rw [hx, hy] at this; exact same_get this

/-- C142. The text written depends on the contents alone, not on the order of the hash maps. -/
theorem write_canonical (env : Env T) {a b : Obs T} (h : SameObs a b) : writeObs env a = writeObs env b := by
  have ht := same_get h.types
  have hh : headerLines a = headerLines b := by
    unfold headerLines
    rw [h.marker, h.approx, h.interval, sort_eq charLe_trans charLe_total
      (fun x y h1 h2 => char_eq (by unfold charLe at h1 h2; simp only [decide_eq_true_eq] at h1 h2; omega)) (same_perm h.types), typeLines_congr ht]
  have hb : ∀ {xs ys : List (Epoch T)}, List.Forall₂ (fun x y : Epoch T => x.time = y.time ∧ Same (Same Eq) x.sats y.sats) xs ys →
      bodyLines env a.types xs = bodyLines env b.types ys := by
    intro xs ys hf
    induction hf with
    | nil => rfl
    | cons hxy _ ih =>
      rename_i x y _ _ _
      have hl : x.sats.length = y.sats.length := by
        have := (same_perm hxy.2).length_eq
        simpa [keys] using this
      rw [bodyLines, bodyLines, hxy.1, ih, hl, rows_congr ht hxy.2]
  unfold writeObs
  rw [hh, hb h.epochs]

/-! ### No panic on ASCII text -/

theorem rawLinesGo_ascii (s : Str) : ∀ cur : Str, isAscii s → isAscii cur → ∀ l ∈ rawLinesGo s cur, isAscii l := by
  induction s with
  | nil =>
    intro cur _ hc l hl
    unfold rawLinesGo at hl
    split_ifs at hl with h0
    · cases hl
    · rw [List.mem_singleton] at hl; subst hl
      intro c hc'
      exact hc c (List.mem_reverse.mp hc')
  | cons x s ih =>
    intro cur hs hc l hl
    obtain ⟨h1, h2⟩ := isAscii_cons.mp hs
    unfold rawLinesGo at hl
    split_ifs at hl with h0
    · rcases List.mem_cons.mp hl with rfl | hl
      · intro c hc'
        rcases List.mem_cons.mp (List.mem_reverse.mp hc') with rfl | hc'
        · exact h1
        · exact hc c hc'
      · exact ih [] h2 (by intro c hc'; cases hc') l hl
    · exact ih (x :: cur) h2 (isAscii_cons.mpr ⟨h1, hc⟩) l hl

theorem body_shape {l : Str} (h : isAscii l) : bodyOf l = [] ∨ (isAscii (bodyOf l) ∧ (bodyOf l).length = 60) := by
  unfold bodyOf
  rw [takeB_ascii h]
  split_ifs with h60
  · right
    refine ⟨fun c hc => h c (List.mem_of_mem_take hc), ?_⟩
    simp only [Option.getD_some, List.length_take]
    omega
  · left; rfl

theorem typesLine_safe {body : Str} (hb : body = [] ∨ (isAscii body ∧ body.length = 60)) (h : Hdr) : ∃ r, typesLine h body = .ok r := by
  rcases hb with rfl | ⟨ha, hl⟩
  · exact ⟨_, rfl⟩
  · cases body with
    | nil => exact ⟨_, rfl⟩
    | cons c b =>
      unfold typesLine
      dsimp only
      by_cases hc : c.isAlpha = true
      · rw [if_pos hc, slice_ascii ha (by omega) (by omega), dropB_ascii ha, if_pos (by omega)]
        exact ⟨_, rfl⟩
      · rw [if_neg hc]; exact ⟨_, rfl⟩

theorem header_safe (ls : List Str) : ∀ (h : Hdr) (p : Option Pending), (∀ l ∈ ls, isAscii l) →
    headerLoop h p ls = .err .eof ∨ ∃ hd rest, headerLoop h p ls = .ok (hd, rest) ∧ ∀ l ∈ rest, isAscii l := by
  induction ls with
  | nil => intro h p _; left; cases p <;> rfl
  | cons l ls ih =>
    intro h p ha
    have hls : ∀ l ∈ ls, isAscii l := fun x hx => ha x (by simp [hx])
    cases p with
    | some p => rw [headerLoop]; exact ih _ _ hls
    | none =>
      rw [headerLoop]
      by_cases he : labelOf l = "END OF HEADER".toList
      · rw [if_pos he]; exact Or.inr ⟨h, ls, rfl, hls⟩
      · rw [if_neg he]
        have : ∃ r, headerLine h (labelOf l) (bodyOf l) = .ok r := by
          unfold headerLine
          split_ifs
          · exact ⟨_, rfl⟩
          · exact ⟨_, rfl⟩
          · exact ⟨_, rfl⟩
          · exact typesLine_safe (body_shape (ha l (by simp))) h
          · exact ⟨_, rfl⟩
        obtain ⟨r, hr⟩ := this
        rw [hr]
        exact ih _ _ hls

theorem cells_safe {payload : Str} (hp : isAscii payload) (ts : List Str) : ∀ (i : Nat) (m : Map Str F64), ∃ m', readCells payload i ts m = .ok m' := by
  induction ts with
  | nil => intro i m; exact ⟨m, rfl⟩
  | cons t ts ih =>
    intro i m
    rw [readCells]
    by_cases h : blen payload ≤ i * 16
    · rw [if_pos h]; exact ⟨m, rfl⟩
    · have hb := blen_ascii hp
      rw [if_neg h, slice_ascii hp (by omega) (by omega)]
      simp only [Res.orPanic, Res.bind]
      split
      · exact ih _ _
      · exact ih _ _

theorem satLine_safe {types : Map Char (List Str)} {sats : Map Str (Map Str F64)} {l : Str} (h : isAscii l) : ∃ s, satLine types sats l = .ok s := by
  have hr := trimEnd_ascii h
  unfold satLine
  dsimp only
  by_cases h3 : blen (trimEnd l) < 3
  · rw [if_pos h3]; exact ⟨_, rfl⟩
  · have hb := blen_ascii hr
    rw [if_neg h3, takeB_ascii hr, if_pos (by omega), dropB_ascii hr, if_pos (by omega)]
    simp only [Res.orPanic, Res.bind]
    obtain ⟨m, hm⟩ := cells_safe (payload := (trimEnd l).drop 3) (fun c hc => hr c (List.mem_of_mem_drop hc))
      ((get types (((trimEnd l).take 3).head?.getD ' ')).getD []) 0 []
    rw [hm]
    exact ⟨_, rfl⟩

theorem epochLine_safe (env : Env T) (l : Str) : epochLine env l ≠ .panic := by
  unfold epochLine
  dsimp only
  split_ifs with h
  · split
    · split_ifs
      · intro hp
        unfold Res.ofOption at hp
        split at hp <;> cases hp
      · intro hp; cases hp
    · intro hp; cases hp
  · intro hp; cases hp

theorem body_safe (env : Env T) (types : Map Char (List Str)) (ls : List Str) : ∀ (es : List (Epoch T)) (o : Option (Open T)), (∀ l ∈ ls, isAscii l) →
    bodyLoop env types es o ls ≠ .panic := by
  induction ls with
  | nil => intro es o _ hp; cases o <;> cases hp
  | cons l ls ih =>
    intro es o ha
    have hls : ∀ l ∈ ls, isAscii l := fun x hx => ha x (by simp [hx])
    cases o with
    | some o =>
      obtain ⟨s, hs⟩ := satLine_safe (types := types) (sats := o.sats) (ha l (by simp))
      rw [bodyLoop, hs]
      exact ih _ _ hls
    | none =>
      have h0 := epochLine_safe env l
      rw [bodyLoop]
      cases he : epochLine env l with
      | ok e =>
        cases e with
        | none => exact ih _ _ hls
        | some e => exact ih _ _ hls
      | err x => intro hp; cases hp
      | panic => exact absurd he h0

/-- C142. No ASCII text stops the reader. -/
theorem ascii_never_panics (env : Env T) {text : Str} (h : isAscii text) : readObs env text ≠ .panic := by
  have hl := rawLinesGo_ascii text [] h (by intro c hc; cases hc)
  unfold readObs
  rcases header_safe (rawLines text) ⟨[], none, none, []⟩ none hl with e | ⟨hd, rest, e, hr⟩
  · rw [e]; intro hp; cases hp
  · rw [e]
    simp only [Res.bind]
    have := body_safe env hd.types rest [] none hr
    cases hb : bodyLoop env hd.types [] none rest with
    | ok es => intro hp; cases hp
    | err x => intro hp; cases hp
    | panic => exact absurd hb this

/-- The header of the samples below. -/
def sampleHeader : Str :=
  "G    1 C1C                                                  SYS / # / OBS TYPES\n                                                            END OF HEADER\n".toList

/-- C142, finding. Other text may: here the third byte of a satellite line is inside a character. -/
theorem other_text_panics : readObs plainEnv (sampleHeader ++ "> 2024 01 01 00 00  0.0000000  0  1\nG0é  20100000.000\n".toList) = .panic := by decide +kernel

/-- C142, finding. The lines of an event (flag 4: comments and header changes) are read as satellites, here a blank one and `NEW`. -/
theorem events_read_as_satellites :
    (readObs plainEnv (sampleHeader ++ "> 2024 01 01 00 00  0.0000000  4  2\n        a comment\nNEW1    MARKER NAME\n".toList)).bind
      (fun o => .ok (o.epochs.map (·.sats))) = .ok [[("   ".toList, []), ("NEW".toList, [])]] := by decide +kernel

/-- C142, finding. A count one too large swallows the rest of the file, and the reader reports its end. -/
theorem large_count_swallows :
    readObs plainEnv "G    2 C1C                                                  SYS / # / OBS TYPES\n                                                            END OF HEADER\n> 2024 01 01 00 00  0.0000000  0  1\nG01  20100000.000\n".toList =
      .err .eof := by decide +kernel

/-! ### Cases -/

def sample : Obs Civil :=
  ⟨"TINY".toList, some (.num 4027894, .num (-307046), .num 4919474), some (.num 30), [('G', ["C1C".toList, "L1C".toList])],
    [⟨⟨2024, 1, 1, 0, 0, 30, 500⟩, [("G01".toList, [("C1C".toList, .num (20100000 + 1 / 3))])]⟩]⟩

example : Fits plainEnv sample := by
  refine ⟨⟨⟨fun c hc => ?_, fun c hc => ?_⟩, by decide, by decide⟩, ?_, ?_, ⟨by decide, by decide⟩, ?_, ?_, ?_, ?_⟩
  · cases hc; decide
  · cases hc; decide
  · intro x y z h
    cases h
    exact ⟨_, _, _, rfl, rfl, rfl, by norm_num [abs_of_pos], by norm_num [abs_of_neg], by norm_num [abs_of_pos]⟩
  · intro v h
    cases h
    exact ⟨_, rfl, by norm_num [abs_of_pos]⟩
  · intro s ts h
    unfold sample at h
    rw [get_cons, get_nil] at h
    split_ifs at h with hs
    cases h
    refine ⟨by decide, ?_⟩
    intro t ht
    simp only [List.mem_cons, List.not_mem_nil, or_false] at ht
    rcases ht with rfl | rfl <;> exact ⟨by decide, by decide, by decide⟩
  · intro e he
    simp only [sample, List.mem_singleton] at he
    subst he
    exact ⟨_, rfl, by decide, by decide⟩
  · intro e he
    simp only [sample, List.mem_singleton] at he
    subst he
    refine ⟨by decide, ?_, by decide⟩
    intro s hs
    simp only [keys, List.map_cons, List.map_nil, List.mem_singleton] at hs
    subst hs
    exact ⟨by decide, by decide⟩
  · intro e he s vals hg t _ v hv
    simp only [sample, List.mem_singleton] at he
    subst he
    rw [get_cons, get_nil] at hg
    split_ifs at hg
    cases hg
    rw [get_cons, get_nil] at hv
    split_ifs at hv
    cases hv
    constructor <;> norm_num

example : again sample = .ok [[("G01".toList, [("C1C".toList, .num (20100000 + 333 / 1000))])]] := by decide +kernel

end Verif.Obs.Props
