import Verif.Cpf.Model
import Verif.Calendar.Lemmas
import Verif.Rinex.Read

/-
Property C70: what the CPF reader returns.
-/
namespace Verif.Cpf.Spec
open Verif.Text Verif.Sp3 Verif.Calendar

variable {T : Type}

/-- The tokens after the tag of each position record, up to the end mark. -/
def records (ls : List Str) : List (List Str) :=
  ((ls.map words).takeWhile (fun w => decide (w.head? ≠ some "99".toList))).filterMap
    (fun w => if w.head? = some "10".toList then some w.tail else none)

/-- The numbers of a record: MJD, seconds of the day, three coordinates in metres. -/
structure Numbers (rest : List Str) (mjd : Int) (sod x y z : F64) : Prop where
  mjd : ∃ s, rest[1]? = some s ∧ parseInt (2 ^ 63 - 1) s = some mjd
  sod : ∃ s, rest[2]? = some s ∧ parseFloat s = some sod
  x : ∃ s, rest[4]? = some s ∧ parseFloat s = some x
  y : ∃ s, rest[5]? = some s ∧ parseFloat s = some y
  z : ∃ s, rest[6]? = some s ∧ parseFloat s = some z

/-- The moment with Modified Julian Date `mjd` and `q` seconds of the day, to the nanosecond, of a date that chrono and tempoch accept. -/
structure Moment (env : Env T) (mjd : Int) (q : ℚ) (c : Civil) (t : T) : Prop where
  date : ∃ y : Nat, c.year = y ∧ Valid y c.month c.day ∧ (dayNumber y c.month c.day : Int) = mjd + 2400001
  time : ((c.hour * 3600 + c.minute * 60 + c.second : Nat) : Int) = ⌊q⌋ ∧ c.hour < 24 ∧ c.minute < 60 ∧ c.second < 60
  nano : (c.nano : Int) = ⌊(q - (⌊q⌋ : ℚ)) * 10 ^ 9 + 1 / 2⌋ ∧ (c.nano < 10 ^ 9 ∨ c.second = 59)
  known : env.dateOk c.year c.month c.day = true
  utc : env.ofChrono c = some t

/-- A record and the entry it stands for. -/
def Reads (env : Env T) (days : Days) (rest : List Str) (e : Entry T) : Prop :=
  ∃ (mjd : Int) (q : ℚ) (x y z : F64) (c : Civil), Numbers rest mjd (.num q) x y z ∧ days.mjdOk mjd = true ∧ Moment env mjd q c e.time ∧
    e.x = scale (1 / 1000) x ∧ e.y = scale (1 / 1000) y ∧ e.z = scale (1 / 1000) z

/-- All numbers are present. -/
def Complete (rest : List Str) : Prop := ∃ mjd sod x y z, Numbers rest mjd sod x y z

/-- Years 0 to about 1.9 billion, seconds of the day not negative. -/
def InRange (rest : List Str) : Prop :=
  ∀ mjd sod x y z, Numbers rest mjd sod x y z → -678941 ≤ mjd ∧ mjd < 7 * 10 ^ 11 ∧ ∃ q : ℚ, sod = .num q ∧ 0 ≤ q

/-- What becomes of a record: an entry, or, in the permissive mode, nothing if numbers are missing. -/
def Fate (env : Env T) (days : Days) (strict : Bool) (rest : List Str) : Option (Entry T) → Prop
  | some e => Reads env days rest e
  | none => strict = false ∧ ¬ Complete rest

end Verif.Cpf.Spec

namespace Verif.Cpf.Props
open Verif.Text Verif.Sp3 Verif.Rinex Verif.Calendar Verif.Cpf.Spec

variable {T : Type}

/-! ### Words -/

theorem wordsGo_append {c : Char} (hc : isWs c = true) (t : Str) : ∀ (a cur : Str),
    wordsGo (a ++ c :: t) cur = wordsGo a cur ++ wordsGo t [] := by
  intro a
  induction a with
  | nil =>
    intro cur
    simp only [List.nil_append, wordsGo, hc, if_true]
    split <;> simp
  | cons x a ih =>
    intro cur
    simp only [List.cons_append, wordsGo]
    split
    · split
      · rw [ih]
      · rw [ih, List.cons_append]
    · rw [ih]

theorem words_append {c : Char} (hc : isWs c = true) (a t : Str) : words (a ++ c :: t) = words a ++ words t := wordsGo_append hc t a []

theorem words_all_ws {t : Str} (h : ∀ c ∈ t, isWs c = true) : words t = [] := by
  induction t with
  | nil => rfl
  | cons x t ih => rw [words_ws (h x (by simp)), ih (fun c hc => h c (by simp [hc]))]

theorem words_trimEnd (s : Str) : words (trimEnd s) = words s := by
  have e : s = trimEnd s ++ (s.reverse.takeWhile isWs).reverse := by
    unfold trimEnd
    rw [← List.reverse_append, List.takeWhile_append_dropWhile, List.reverse_reverse]
  have hall : ∀ c ∈ (s.reverse.takeWhile isWs).reverse, isWs c = true := by
    intro c hc
    exact List.all_eq_true.1 (List.all_takeWhile (p := isWs) (l := s.reverse)) c (List.mem_reverse.mp hc)
  generalize (s.reverse.takeWhile isWs).reverse = w at e hall
  cases w with
  | nil => rw [List.append_nil] at e; rw [← e]
  | cons x w =>
    conv_rhs => rw [e]
    rw [words_append (hall x (by simp)), words_all_ws (t := w) (fun c hc => hall c (by simp [hc])), List.append_nil]

/-! ### Dates -/

theorem ofOption_iff {ε α : Type} {e : ε} {o : Option α} {a : α} : Res.ofOption e o = .ok a ↔ o = some a := by
  cases o <;> simp [Res.ofOption]


theorem i64_of {ε : Type} {ck : Bool} {z : Int} (h0 : -2 ^ 63 ≤ z) (h1 : z < 2 ^ 63) : (i64 ck z : Res ε Int) = .ok z := by
  unfold i64; rw [if_pos ⟨h0, h1⟩]

theorem ymd_fliegel {ε : Type} (ck : Bool) {mjd : Int} (h0 : -678941 ≤ mjd) (h1 : mjd < 2 ^ 60) :
    (ymd ck mjd : Res ε _) = .ok (fliegel (mjd + 2400001)) := by
  unfold ymd
  rw [i64_of (by omega) (by omega)]
  simp only [Res.bind]
  rw [i64_of (by omega) (by omega)]
  simp only [Res.bind]
  rw [i64_of (by omega) (by omega)]
  simp only [Res.bind]
  obtain ⟨j, hj⟩ : ∃ j, j = mjd + 2400001 := ⟨_, rfl⟩
  obtain ⟨a, ha⟩ : ∃ a, a = j + 32044 := ⟨_, rfl⟩
  obtain ⟨b, hb⟩ : ∃ b, b = (4 * a + 3) / 146097 := ⟨_, rfl⟩
  obtain ⟨c, hc⟩ : ∃ c, c = a - (146097 * b) / 4 := ⟨_, rfl⟩
  obtain ⟨d, hd⟩ : ∃ d, d = (4 * c + 3) / 1461 := ⟨_, rfl⟩
  obtain ⟨e, he⟩ : ∃ e, e = c - (1461 * d) / 4 := ⟨_, rfl⟩
  obtain ⟨m, hm⟩ : ∃ m, m = (5 * e + 2) / 153 := ⟨_, rfl⟩
  obtain ⟨b0, c0, c1, c2, d0, d1, e0, e1, e2, m0, m1⟩ := civil_parts (by omega) hb hc hd he hm
  have hn : (4 * (j + 68569)) / 146097 = b + 1 := by omega
  have hl2 : j + 68569 - (146097 * (b + 1) + 3) / 4 = c := by omega
  have hi : (4000 * (c + 1)) / 1461001 = d := by omega
  have hl3 : c - (1461 * d) / 4 + 31 = e + 31 := by omega
  have hk : (80 * (e + 31)) / 2447 = m + 1 := by rw [fliegel_month e0 e1, hm]
  have t1 : (4 * (j + 68569)).tdiv 146097 = b + 1 := by
    rw [Int.tdiv_eq_ediv_of_nonneg (by omega), hn]
  have t2 : (146097 * (b + 1) + 3).tdiv 4 = (146097 * (b + 1) + 3) / 4 := Int.tdiv_eq_ediv_of_nonneg (by omega)
  have t3 : (4000 * (c + 1)).tdiv 1461001 = (4000 * (c + 1)) / 1461001 := Int.tdiv_eq_ediv_of_nonneg (by omega)
  have t4 : (1461 * d).tdiv 4 = (1461 * d) / 4 := Int.tdiv_eq_ediv_of_nonneg (by omega)
  have t5 : (80 * (e + 31)).tdiv 2447 = (80 * (e + 31)) / 2447 := Int.tdiv_eq_ediv_of_nonneg (by omega)
  have t6 : (m + 1).tdiv 11 = (m + 1) / 11 := Int.tdiv_eq_ediv_of_nonneg (by omega)
  have t7 : (2447 * (m + 1)).tdiv 80 = (2447 * (m + 1)) / 80 := Int.tdiv_eq_ediv_of_nonneg (by omega)
  unfold fliegel
  rw [← hj]
  simp only [t1, t2, hn, hl2, t3, hi, t4, hl3, t5, hk, t6, t7]

theorem monthLength_le (y m : Nat) : monthLength y m ≤ 31 := by
  unfold monthLength; split <;> try split
  all_goals omega

/-- Every MJD of the range is the day of a date, and the reader finds it. -/
theorem ymd_correct {ε : Type} (ck : Bool) {mjd : Int} (h0 : -678941 ≤ mjd) (h1 : mjd < 7 * 10 ^ 11) :
    ∃ y m d : Nat, (ymd ck mjd : Res ε _) = .ok ((y : Int), (m : Int), (d : Int)) ∧ Valid y m d ∧
      (dayNumber y m d : Int) = mjd + 2400001 ∧ y < 2 ^ 31 := by
  obtain ⟨y, m, d, e, hv, hd⟩ := civil_correct (j := mjd + 2400001) (by omega)
  refine ⟨y, m, d, ?_, hv, hd, ?_⟩
  · rw [ymd_fliegel ck h0 (by omega), fliegel_eq (by omega), e]
  · have hy := daysBeforeYear_eq y
    unfold dayNumber at hd
    push_cast at hd
    omega

/-- Reading the seconds of the day. -/
theorem sod_split {q : ℚ} (h0 : 0 ≤ q) :
    (q < 86400 → asU32 (.num q) = ⌊q⌋.toNat ∧ asU32 (.num q) / 3600 < 24) ∧ (asU32 (.num q) / 3600 < 24 → q < 86400) := by
  have hf : (0 : Int) ≤ ⌊q⌋ := Int.floor_nonneg.2 h0
  have e : asU32 (.num q) = min ⌊q⌋.toNat (2 ^ 32 - 1) := rfl
  constructor
  · intro h
    have : ⌊q⌋ < 86400 := by rw [Int.floor_lt]; exact_mod_cast h
    rw [e]; omega
  · intro h
    rw [e] at h
    have : ⌊q⌋ < 86400 := by omega
    rw [Int.floor_lt] at this
    exact_mod_cast this

/-- C70: an epoch is accepted exactly when its MJD and seconds are those of a moment, and it is that moment. -/
theorem epoch_iff (env : Env T) (ck : Bool) {mjd : Int} (h0 : -678941 ≤ mjd) (h1 : mjd < 7 * 10 ^ 11) {q : ℚ} (hq : 0 ≤ q) (t : T) :
    buildEpoch env ck mjd (.num q) = .ok t ↔ ∃ c, Moment env mjd q c t := by
  obtain ⟨y, m, d, e, hv, hd, hy⟩ := ymd_correct (ε := CpfErr) ck h0 h1
  have hm12 := hv.m12
  have hd31 := le_trans hv.dl (monthLength_le y m)
  have hf : (0 : Int) ≤ ⌊q⌋ := Int.floor_nonneg.2 hq
  have hround : (0 : Int) ≤ ⌊(q - (⌊q⌋ : ℚ)) * 10 ^ 9 + 1 / 2⌋ := by
    apply Int.floor_nonneg.2
    have := Int.floor_le q
    nlinarith
  unfold buildEpoch
  rw [e]
  simp only [Res.bind]
  rw [wrapI32_of (by omega) (by omega), wrapU32_of (by omega) (by omega), wrapU32_of (by omega) (by omega), Int.toNat_natCast,
    Int.toNat_natCast]
  constructor
  · intro h
    split at h
    · rename_i hc
      rw [Bool.and_eq_true] at hc
      obtain ⟨hok, ht⟩ := hc
      unfold timeOk at ht
      simp only [Bool.and_eq_true, Bool.or_eq_true, decide_eq_true_eq] at ht
      obtain ⟨⟨⟨⟨a1, a2⟩, a3⟩, a4⟩, -⟩ := ht
      have hlt := (sod_split hq).2 a1
      obtain ⟨b1, -⟩ := (sod_split hq).1 hlt
      refine ⟨_, ⟨y, rfl, hv, hd⟩, ⟨?_, a1, a2, a3⟩, ⟨?_, a4⟩, hok, ofOption_iff.1 h⟩
      · rw [b1]
        show ((⌊q⌋.toNat / 3600 * 3600 + ⌊q⌋.toNat % 3600 / 60 * 60 + ⌊q⌋.toNat % 60 : ℕ) : ℤ) = ⌊q⌋
        omega
      · show ((nanosOf (.num q) (asU32 (.num q)) : ℕ) : ℤ) = _
        rw [b1, nanosOf_of hq]
        unfold roundHalfUp
        exact Int.toNat_of_nonneg hround
    · cases h
  · rintro ⟨⟨cy, cm, cd, ch, cmi, cs, cn⟩, ⟨y', e1, hv', hd'⟩, ⟨e2, a1, a2, a3⟩, ⟨e3, a4⟩, hok, hutc⟩
    simp only at e1 hv' hd' e2 a1 a2 a3 e3 a4 hok
    obtain ⟨rfl, rfl, rfl⟩ := dayNumber_injective hv' hv (by omega)
    subst e1
    have hlt : q < 86400 := by
      have : ⌊q⌋ < 86400 := by omega
      rw [Int.floor_lt] at this
      exact_mod_cast this
    obtain ⟨b1, -⟩ := (sod_split hq).1 hlt
    have f1 : asU32 (.num q) / 3600 = ch := by omega
    have f2 : asU32 (.num q) % 3600 / 60 = cmi := by omega
    have f3 : asU32 (.num q) % 60 = cs := by omega
    have f4 : nanosOf (.num q) (asU32 (.num q)) = cn := by
      rw [b1, nanosOf_of hq]
      unfold roundHalfUp
      omega
    have hn : cn < 2 * 10 ^ 9 := by
      have : ⌊(q - (⌊q⌋ : ℚ)) * 10 ^ 9 + 1 / 2⌋ < 2 * 10 ^ 9 := by
        rw [Int.floor_lt]
        have := Int.lt_floor_add_one q
        push_cast
        nlinarith
      omega
    rw [f1, f2, f3, f4, if_pos, hutc]
    · rfl
    · rw [hok]
      unfold timeOk
      simp only [Bool.true_and, Bool.and_eq_true, Bool.or_eq_true, decide_eq_true_eq]
      exact ⟨⟨⟨⟨a1, a2⟩, a3⟩, a4⟩, hn⟩

/-! ### Records -/

theorem fieldAt_iff {α : Type} {rest : List Str} {i : Nat} {parse : Str → Option α} {v : α} :
    fieldAt rest i parse = some v ↔ ∃ s, rest[i]? = some s ∧ parse s = some v := Option.bind_eq_some_iff

theorem numbers_iff {rest : List Str} {mjd : Int} {sod x y z : F64} : Numbers rest mjd sod x y z ↔
    fieldAt rest 1 (parseInt (2 ^ 63 - 1)) = some mjd ∧ fieldAt rest 2 parseFloat = some sod ∧ fieldAt rest 4 parseFloat = some x ∧
      fieldAt rest 5 parseFloat = some y ∧ fieldAt rest 6 parseFloat = some z := by
  simp only [fieldAt_iff]
  constructor
  · rintro ⟨a, b, c, d, e⟩; exact ⟨a, b, c, d, e⟩
  · rintro ⟨a, b, c, d, e⟩; exact ⟨a, b, c, d, e⟩

theorem position_complete {env : Env T} {days : Days} {ck : Bool} {no : Nat} {rest : List Str} {mjd : Int} {sod x y z : F64}
    (h : Numbers rest mjd sod x y z) : position env days ck no rest = if days.mjdOk mjd then
      (buildEpoch env ck mjd sod).bind (fun t => .ok ⟨t, scale (1 / 1000) x, scale (1 / 1000) y, scale (1 / 1000) z⟩) else .err .mjd := by
  obtain ⟨h1, h2, h3, h4, h5⟩ := numbers_iff.1 h
  unfold position
  rw [h1, h2, h3, h4, h5]

theorem position_incomplete {env : Env T} {days : Days} {ck : Bool} {no : Nat} {rest : List Str} (h : ¬ Complete rest) :
    ∃ w, position env days ck no rest = .err (.missing no w) := by
  unfold position
  rcases h1 : fieldAt rest 1 (parseInt (2 ^ 63 - 1)) with _ | m
  · exact ⟨_, rfl⟩
  · rcases h2 : fieldAt rest 2 parseFloat with _ | s
    · exact ⟨_, rfl⟩
    · rcases h3 : fieldAt rest 4 parseFloat with _ | x
      · exact ⟨_, rfl⟩
      · rcases h4 : fieldAt rest 5 parseFloat with _ | y
        · exact ⟨_, rfl⟩
        · rcases h5 : fieldAt rest 6 parseFloat with _ | z
          · exact ⟨_, rfl⟩
          · exact absurd ⟨m, s, x, y, z, numbers_iff.2 ⟨h1, h2, h3, h4, h5⟩⟩ h

theorem bind_ok' {ε α β : Type} {r : Res ε α} {f : α → Res ε β} {b : β} : r.bind f = .ok b ↔ ∃ a, r = .ok a ∧ f a = .ok b := by
  cases r <;> simp [Res.bind]

theorem numbers_det {rest : List Str} {m m' : Int} {s s' x x' y y' z z' : F64} (h : Numbers rest m s x y z) (h' : Numbers rest m' s' x' y' z') :
    m = m' ∧ s = s' ∧ x = x' ∧ y = y' ∧ z = z' := by
  obtain ⟨h1, h2, h3, h4, h5⟩ := numbers_iff.1 h
  obtain ⟨g1, g2, g3, g4, g5⟩ := numbers_iff.1 h'
  rw [h1] at g1; rw [h2] at g2; rw [h3] at g3; rw [h4] at g4; rw [h5] at g5
  simp only [Option.some.injEq] at g1 g2 g3 g4 g5
  exact ⟨g1, g2, g3, g4, g5⟩

theorem position_iff {env : Env T} {days : Days} {ck : Bool} {no : Nat} {rest : List Str} (hin : InRange rest) (e : Entry T) :
    position env days ck no rest = .ok e ↔ Reads env days rest e := by
  by_cases hc : Complete rest
  · obtain ⟨mjd, sod, x, y, z, hn⟩ := hc
    obtain ⟨r0, r1, q, rfl, hq⟩ := hin _ _ _ _ _ hn
    rw [position_complete hn]
    constructor
    · intro h
      split at h
      · rename_i hm
        obtain ⟨t, ht, he⟩ := bind_ok'.1 h
        obtain ⟨c, hcm⟩ := (epoch_iff env ck r0 r1 hq t).1 ht
        simp only [Res.ok.injEq] at he
        subst he
        exact ⟨mjd, q, x, y, z, c, hn, hm, hcm, rfl, rfl, rfl⟩
      · cases h
    · rintro ⟨m', q', x', y', z', c, hn', hm, hcm, ex, ey, ez⟩
      obtain ⟨rfl, hs, rfl, rfl, rfl⟩ := numbers_det hn hn'
      simp only [F64.num.injEq] at hs
      subst hs
      rw [if_pos hm, (epoch_iff env ck r0 r1 hq e.time).2 ⟨c, hcm⟩]
      simp only [Res.bind, ← ex, ← ey, ← ez]
  · obtain ⟨w, h⟩ := position_incomplete (env := env) (days := days) (ck := ck) (no := no) hc
    rw [h]
    constructor
    · intro h; cases h
    · rintro ⟨m', q', x', y', z', c, hn', -⟩
      exact absurd ⟨_, _, _, _, _, hn'⟩ hc

theorem records_skip {l : Str} {ls : List Str} (h1 : (words l).head? ≠ some "10".toList) (h2 : (words l).head? ≠ some "99".toList) :
    records (l :: ls) = records ls := by
  unfold records
  rw [List.map_cons, List.takeWhile_cons, if_pos (by simpa using h2), List.filterMap_cons, if_neg h1]

theorem records_ten {l : Str} {ls rest : List Str} (h : words l = "10".toList :: rest) : records (l :: ls) = rest :: records ls := by
  unfold records
  rw [List.map_cons, h, List.takeWhile_cons, if_pos (by simp), List.filterMap_cons, if_pos (by simp)]
  rfl

theorem records_end {l : Str} {ls rest : List Str} (h : words l = "99".toList :: rest) : records (l :: ls) = [] := by
  unfold records
  rw [List.map_cons, h, List.takeWhile_cons, if_neg (by simp)]
  rfl

theorem loop_skip {env : Env T} {days : Days} {ck strict : Bool} {l : Str} {ls : List Str} {no : Nat} {f : File T}
    (h1 : (words l).head? ≠ some "10".toList) (h2 : (words l).head? ≠ some "99".toList) :
    ∃ g : File T, g.entries = f.entries ∧ loop env days ck strict (l :: ls) no f = loop env days ck strict ls (no + 1) g := by
  rw [loop, words_trimEnd]
  rcases hw : words l with _ | ⟨tag, rest⟩
  · exact ⟨f, rfl, rfl⟩
  · rw [hw, List.head?_cons, ne_eq, Option.some.injEq] at h1 h2
    simp only
    rw [if_neg h1, if_neg h2]
    split
    · exact ⟨lineH1 f rest, rfl, rfl⟩
    · split
      · exact ⟨lineH2 f rest, rfl, rfl⟩
      · exact ⟨f, rfl, rfl⟩

theorem loop_ten {env : Env T} {days : Days} {ck strict : Bool} {l : Str} {ls rest : List Str} {no : Nat} {f : File T}
    (h : words l = "10".toList :: rest) : loop env days ck strict (l :: ls) no f =
      match position env days ck (no + 1) rest with
      | .ok e => loop env days ck strict ls (no + 1) { f with entries := f.entries ++ [e] }
      | .err (.missing n w) => if strict then .err (.missing n w) else loop env days ck strict ls (no + 1) f
      | .err e => .err e
      | .panic => .panic := by
  rw [loop, words_trimEnd, h]
  simp only
  rw [if_neg (by decide), if_neg (by decide), if_pos (by trivial)]
  cases position env days ck (no + 1) rest with
  | ok e => rfl
  | err e => cases e <;> rfl
  | panic => rfl

theorem loop_end {env : Env T} {days : Days} {ck strict : Bool} {l : Str} {ls rest : List Str} {no : Nat} {f : File T}
    (h : words l = "99".toList :: rest) : loop env days ck strict (l :: ls) no f = .ok f := by
  rw [loop, words_trimEnd, h]
  simp only
  rw [if_neg (by decide), if_neg (by decide), if_neg (by decide), if_pos (by trivial)]

/-- The three kinds of lines. -/
theorem kinds (l : Str) : ((words l).head? ≠ some "10".toList ∧ (words l).head? ≠ some "99".toList) ∨
    (∃ rest, words l = "10".toList :: rest) ∨ ∃ rest, words l = "99".toList :: rest := by
  rcases words l with _ | ⟨tag, rest⟩
  · left; simp
  · by_cases h1 : tag = "10".toList
    · right; left; exact ⟨rest, by rw [h1]⟩
    · by_cases h2 : tag = "99".toList
      · right; right; exact ⟨rest, by rw [h2]⟩
      · left; simp only [List.head?_cons, ne_eq, Option.some.injEq]; exact ⟨h1, h2⟩

theorem build_not_missing {env : Env T} {ck : Bool} {mjd : Int} {sod : F64} {n : Nat} {w : Str} :
    buildEpoch env ck mjd sod ≠ .err (.missing n w) := by
  have hy : ∀ e : CpfErr, (ymd ck mjd : Res CpfErr _) ≠ .err e := by
    intro e h
    have i : ∀ z, (i64 ck z : Res CpfErr Int) ≠ .err e := by
      intro z h; unfold i64 at h; split at h
      · cases h
      · split at h <;> cases h
    unfold ymd at h
    cases h1 : (i64 ck (mjd + 2400001) : Res CpfErr Int) with
    | err e' => rw [h1] at h; cases h; exact i _ h1
    | panic => rw [h1] at h; cases h
    | ok a =>
      rw [h1] at h
      simp only [Res.bind] at h
      cases h2 : (i64 ck (a + 68569) : Res CpfErr Int) with
      | err e' => rw [h2] at h; cases h; exact i _ h2
      | panic => rw [h2] at h; cases h
      | ok b =>
        rw [h2] at h
        simp only at h
        cases h3 : (i64 ck (4 * b) : Res CpfErr Int) with
        | err e' => rw [h3] at h; cases h; exact i _ h3
        | panic => rw [h3] at h; cases h
        | ok c => rw [h3] at h; cases h
  intro h
  unfold buildEpoch at h
  cases h1 : (ymd ck mjd : Res CpfErr _) with
  | err e => exact hy e h1
  | panic => rw [h1] at h; cases h
  | ok p =>
    rw [h1] at h
    obtain ⟨y, m, d⟩ := p
    simp only [Res.bind] at h
    split at h
    · unfold Res.ofOption at h; split at h <;> cases h
    · cases h

theorem position_not_missing {env : Env T} {days : Days} {ck : Bool} {no : Nat} {rest : List Str} (h : Complete rest) {n : Nat} {w : Str} :
    position env days ck no rest ≠ .err (.missing n w) := by
  obtain ⟨mjd, sod, x, y, z, hn⟩ := h
  rw [position_complete hn]
  split
  · intro h
    cases hb : buildEpoch env ck mjd sod with
    | ok t => rw [hb] at h; cases h
    | err e => rw [hb] at h; cases h; exact build_not_missing hb
    | panic => rw [hb] at h; cases h
  · simp

/-- What the loop appends. -/
inductive Appends (env : Env T) (days : Days) (ck strict : Bool) : List (List Str) → List (Entry T) → Prop
  | nil : Appends env days ck strict [] []
  | keep (rest : List Str) (rs : List (List Str)) (e : Entry T) (es : List (Entry T)) :
      (∃ no, position env days ck no rest = .ok e) → Appends env days ck strict rs es → Appends env days ck strict (rest :: rs) (e :: es)
  | drop (rest : List Str) (rs : List (List Str)) (es : List (Entry T)) :
      strict = false → ¬ Complete rest → Appends env days ck strict rs es → Appends env days ck strict (rest :: rs) es

theorem position_no {env : Env T} {days : Days} {ck : Bool} {no no' : Nat} {rest : List Str} {e : Entry T}
    (h : position env days ck no rest = .ok e) : position env days ck no' rest = .ok e := by
  by_cases hc : Complete rest
  · obtain ⟨mjd, sod, x, y, z, hn⟩ := hc
    rw [position_complete hn] at h ⊢
    exact h
  · obtain ⟨w, h'⟩ := position_incomplete (env := env) (days := days) (ck := ck) (no := no) hc
    rw [h'] at h
    cases h

theorem loop_sound {env : Env T} {days : Days} {ck strict : Bool} (ls : List Str) : ∀ (no : Nat) (f f' : File T),
    loop env days ck strict ls no f = .ok f' → ∃ es, f'.entries = f.entries ++ es ∧ Appends env days ck strict (records ls) es := by
  induction ls with
  | nil =>
    intro no f f' h
    simp only [loop, Res.ok.injEq] at h
    subst h
    exact ⟨[], by simp, Appends.nil⟩
  | cons l ls ih =>
    intro no f f' h
    rcases kinds l with ⟨h1, h2⟩ | ⟨rest, hw⟩ | ⟨rest, hw⟩
    · obtain ⟨g, hg, e⟩ := loop_skip (env := env) (days := days) (ck := ck) (strict := strict) (ls := ls) (no := no) (f := f) h1 h2
      rw [e] at h
      rw [records_skip h1 h2, ← hg]
      exact ih _ _ _ h
    · rw [loop_ten hw] at h
      rw [records_ten hw]
      cases hp : position env days ck (no + 1) rest with
      | ok e =>
        rw [hp] at h
        obtain ⟨es, he, ha⟩ := ih _ _ _ h
        exact ⟨e :: es, by rw [he]; simp, Appends.keep _ _ _ _ ⟨_, hp⟩ ha⟩
      | panic => rw [hp] at h; cases h
      | err e =>
        rw [hp] at h
        cases e with
        | missing n w =>
          simp only at h
          split at h
          · cases h
          · rename_i hs
            obtain ⟨es, he, ha⟩ := ih _ _ _ h
            exact ⟨es, he, Appends.drop _ _ _ (by simpa using hs) (fun hc => position_not_missing hc hp) ha⟩
        | mjd => cases h
        | date => cases h
        | utc => cases h
    · rw [loop_end hw] at h
      rw [records_end hw]
      simp only [Res.ok.injEq] at h
      subst h
      exact ⟨[], by simp, Appends.nil⟩

theorem loop_complete {env : Env T} {days : Days} {ck strict : Bool} (ls : List Str) : ∀ (no : Nat) (f : File T) (es : List (Entry T)),
    Appends env days ck strict (records ls) es → ∃ f', loop env days ck strict ls no f = .ok f' ∧ f'.entries = f.entries ++ es := by
  induction ls with
  | nil =>
    intro no f es h
    cases h
    exact ⟨f, rfl, by simp⟩
  | cons l ls ih =>
    intro no f es h
    rcases kinds l with ⟨h1, h2⟩ | ⟨rest, hw⟩ | ⟨rest, hw⟩
    · obtain ⟨g, hg, e⟩ := loop_skip (env := env) (days := days) (ck := ck) (strict := strict) (ls := ls) (no := no) (f := f) h1 h2
      rw [records_skip h1 h2] at h
      rw [e, ← hg]
      exact ih _ _ _ h
    · rw [records_ten hw] at h
      rw [loop_ten hw]
      cases h with
      | keep _ _ e es hp ha =>
        obtain ⟨n, hp⟩ := hp
        rw [position_no hp]
        obtain ⟨f', h1, h2⟩ := ih (no + 1) { f with entries := f.entries ++ [e] } es ha
        exact ⟨f', h1, by rw [h2]; simp⟩
      | drop _ _ _ hs hc ha =>
        obtain ⟨w, hp⟩ := position_incomplete (env := env) (days := days) (ck := ck) (no := no + 1) hc
        rw [hp]
        simp only
        rw [if_neg (by simp [hs])]
        exact ih (no + 1) f es ha
    · rw [records_end hw] at h
      cases h
      exact ⟨f, loop_end hw, by simp⟩

theorem appends_iff {env : Env T} {days : Days} {ck strict : Bool} {rs : List (List Str)} (hin : ∀ r ∈ rs, InRange r) (es : List (Entry T)) :
    Appends env days ck strict rs es ↔ ∃ os, List.Forall₂ (Fate env days strict) rs os ∧ es = os.filterMap id := by
  constructor
  · intro h
    induction h with
    | nil => exact ⟨[], List.Forall₂.nil, rfl⟩
    | keep rest rs e es hp _ ih =>
      obtain ⟨os, ho, rfl⟩ := ih (fun r hr => hin r (by simp [hr]))
      obtain ⟨no, hp⟩ := hp
      exact ⟨some e :: os, List.Forall₂.cons ((position_iff (hin rest (by simp)) e).1 hp) ho, rfl⟩
    | drop rest rs es hs hc _ ih =>
      obtain ⟨os, ho, rfl⟩ := ih (fun r hr => hin r (by simp [hr]))
      exact ⟨none :: os, List.Forall₂.cons ⟨hs, hc⟩ ho, rfl⟩
  · rintro ⟨os, ho, rfl⟩
    induction ho with
    | nil => exact Appends.nil
    | @cons rest o rs os h1 _ ih =>
      have := ih (fun r hr => hin r (by simp [hr]))
      cases o with
      | some e => exact Appends.keep _ _ _ _ ⟨0, (position_iff (hin rest (by simp)) e).2 h1⟩ this
      | none => exact Appends.drop _ _ _ h1.1 h1.2 this

/-- C70: a file is accepted, with the given entries, exactly when each position record before the end mark stands for an entry — or, in
the permissive mode, lacks numbers and is left out. The order is that of the file. -/
theorem read_iff_partial (env : Env T) (days : Days) (ck strict : Bool) (text : Str) (hin : ∀ r ∈ records (lines text), InRange r)
    (es : List (Entry T)) : (∃ f, parseCpf env days ck strict text = .ok f ∧ f.entries = es) ↔
      ∃ os, List.Forall₂ (Fate env days strict) (records (lines text)) os ∧ es = os.filterMap id := by
  rw [← appends_iff (ck := ck) hin]
  constructor
  · rintro ⟨f, h, rfl⟩
    obtain ⟨es, he, ha⟩ := loop_sound _ _ _ _ h
    rw [he]
    exact ha
  · intro h
    obtain ⟨f', h1, h2⟩ := loop_complete (lines text) 0 {} es h
    exact ⟨f', h1, h2⟩

/-- C70: without overflow checks nothing panics. -/
theorem read_no_panic (env : Env T) (days : Days) (strict : Bool) (text : Str) : parseCpf env days false strict text ≠ .panic := by
  have hi : ∀ z, (i64 false z : Res CpfErr Int) ≠ .panic := by intro z; unfold i64; split <;> simp
  have hy : ∀ mjd, (ymd false mjd : Res CpfErr _) ≠ .panic := by
    intro mjd h
    unfold ymd at h
    cases h1 : (i64 false (mjd + 2400001) : Res CpfErr Int) with
    | err e' => rw [h1] at h; cases h
    | panic => exact hi _ h1
    | ok a =>
      rw [h1] at h
      simp only [Res.bind] at h
      cases h2 : (i64 false (a + 68569) : Res CpfErr Int) with
      | err e' => rw [h2] at h; cases h
      | panic => exact hi _ h2
      | ok b =>
        rw [h2] at h
        simp only at h
        cases h3 : (i64 false (4 * b) : Res CpfErr Int) with
        | err e' => rw [h3] at h; cases h
        | panic => exact hi _ h3
        | ok c => rw [h3] at h; cases h
  have hb : ∀ mjd sod, buildEpoch env false mjd sod ≠ .panic := by
    intro mjd sod h
    unfold buildEpoch at h
    cases h1 : (ymd false mjd : Res CpfErr _) with
    | err e => rw [h1] at h; cases h
    | panic => exact hy _ h1
    | ok p =>
      rw [h1] at h
      obtain ⟨y, m, d⟩ := p
      simp only [Res.bind] at h
      split at h
      · unfold Res.ofOption at h; split at h <;> cases h
      · cases h
  have hp : ∀ no rest, position env days false no rest ≠ .panic := by
    intro no rest
    by_cases hc : Complete rest
    · obtain ⟨mjd, sod, x, y, z, hn⟩ := hc
      rw [position_complete hn]
      split
      · intro h
        cases h1 : buildEpoch env false mjd sod with
        | ok t => rw [h1] at h; cases h
        | err e => rw [h1] at h; cases h
        | panic => exact hb _ _ h1
      · simp
    · obtain ⟨w, h'⟩ := position_incomplete (env := env) (days := days) (ck := false) (no := no) hc
      rw [h']; simp
  have : ∀ (ls : List Str) (no : Nat) (f : File T), loop env days false strict ls no f ≠ .panic := by
    intro ls
    induction ls with
    | nil => intro no f; simp [loop]
    | cons l ls ih =>
      intro no f
      rcases kinds l with ⟨h1, h2⟩ | ⟨rest, hw⟩ | ⟨rest, hw⟩
      · obtain ⟨g, -, e⟩ := loop_skip (env := env) (days := days) (ck := false) (strict := strict) (ls := ls) (no := no) (f := f) h1 h2
        rw [e]; exact ih _ _
      · rw [loop_ten hw]
        cases hq : position env days false (no + 1) rest with
        | ok e => exact ih _ _
        | panic => exact absurd hq (hp _ _)
        | err e =>
          cases e with
          | missing n w => simp only; split <;> first | exact ih _ _ | simp
          | mjd => simp
          | date => simp
          | utc => simp
      · rw [loop_end hw]; simp
  exact this _ _ _

/-! ### Disagreements -/

/-- With overflow checks a day number beyond `i64` stops the program. -/
theorem huge_mjd_panics (env : Env T) {mjd : Int} (h : 2 ^ 61 ≤ mjd) (h1 : mjd < 2 ^ 63) (sod : F64) :
    buildEpoch env true mjd sod = .panic := by
  unfold buildEpoch ymd i64
  by_cases a : mjd + 2400001 < 2 ^ 63
  · rw [if_pos ⟨by omega, a⟩]
    simp only [Res.bind]
    by_cases b : mjd + 2400001 + 68569 < 2 ^ 63
    · rw [if_pos ⟨by omega, b⟩]
      simp only
      rw [if_neg (by omega)]
      rfl
    · rw [if_neg (by omega)]
      rfl
  · rw [if_neg (by omega)]
    rfl

/-- Seconds of the day that are negative or not a number stand for midnight, in both modes. -/
theorem bad_seconds_are_midnight (env : Env T) (ck : Bool) (mjd : Int) :
    (∀ q : ℚ, q < 0 → buildEpoch env ck mjd (.num q) = buildEpoch env ck mjd (.num 0)) ∧
      buildEpoch env ck mjd .nan = buildEpoch env ck mjd (.num 0) ∧
      buildEpoch env ck mjd (.inf true) = buildEpoch env ck mjd (.num 0) := by
  have z1 : asU32 (.num 0) = 0 := by decide
  have z2 : nanosOf (.num 0) 0 = 0 := by decide +kernel
  refine ⟨?_, ?_, ?_⟩
  · intro q hq
    have f : ⌊q⌋ < 0 := by rw [Int.floor_lt]; exact_mod_cast hq
    have e1 : asU32 (.num q) = 0 := by
      show min ⌊q⌋.toNat (2 ^ 32 - 1) = 0
      omega
    have e2 : nanosOf (.num q) 0 = 0 := by
      show min (roundHalfUp ((q - (0 : ℕ)) * 10 ^ 9)) (2 ^ 32 - 1) = 0
      unfold roundHalfUp
      have : ⌊(q - (0 : ℕ)) * 10 ^ 9 + 1 / 2⌋ < 1 := by
        rw [Int.floor_lt]
        push_cast
        nlinarith
      omega
    unfold buildEpoch
    simp only [e1, e2, z1, z2]
  all_goals
    unfold buildEpoch
    simp only [z1, z2]
    rfl

/-- The date of a year above 2³¹ is that of a year 2³² earlier. -/
theorem year_wraps (env : Env T) (ck : Bool) (sod : F64) :
    buildEpoch env ck 1568704652919 sod = buildEpoch env ck 60310 sod := by
  unfold buildEpoch
  have a : (ymd ck 1568704652919 : Res CpfErr _) = .ok (4294969320, 1, 1) := by cases ck <;> decide +kernel
  have b : (ymd ck 60310 : Res CpfErr _) = .ok (2024, 1, 1) := by cases ck <;> decide +kernel
  rw [a, b]
  rfl

end Verif.Cpf.Props
