import Verif.Sp3.Stream
import Mathlib.Tactic.Linarith
import Mathlib.Tactic.Positivity
import Mathlib.Tactic.NormNum
import Mathlib.Tactic.Ring
import Mathlib.Tactic.FieldSimp

/-
Property C67: what a record read from an SP3 file contains.
-/
namespace Verif.Sp3.Props
open Verif.Text Verif.Sp3

variable {T : Type}

/-! ### Specification -/

def Star (l : Str) : Prop := l.head? = some '*'

instance (l : Str) : Decidable (Star l) := inferInstanceAs (Decidable (_ = _))

def IsP (l : Str) : Bool := decide (l.head? = some 'P')

/-- A position line: `P`, three bytes of satellite name, four numbers. -/
def PosText (l : Str) (p : Pos) : Prop :=
  ∃ a id tail x y z c rest, l = a ++ (id ++ tail) ∧ blen a = 1 ∧ blen id = 3 ∧ p.sat = trim id ∧ words tail = x :: y :: z :: c :: rest ∧
    parseFloat x = some p.x ∧ parseFloat y = some p.y ∧ parseFloat z = some p.z ∧ parseFloat c = some p.clock

/-- An epoch line: the date and time that chrono is given. Seconds that are a number and not negative are kept to half a
nanosecond. -/
def EpochText (env : Env T) (l : Str) (t : T) : Prop :=
  ∃ y mo d h mi s rest c sec, words l.tail = y :: mo :: d :: h :: mi :: s :: rest ∧ parseInt (2 ^ 31 - 1) y = some c.year ∧
    parseUInt (2 ^ 32 - 1) mo = some c.month ∧ parseUInt (2 ^ 32 - 1) d = some c.day ∧ parseUInt (2 ^ 32 - 1) h = some c.hour ∧
    parseUInt (2 ^ 32 - 1) mi = some c.minute ∧ parseFloat s = some sec ∧ env.dateOk c.year c.month c.day = true ∧ c.hour < 24 ∧
    c.minute < 60 ∧ c.second < 60 ∧ (c.nano < 10 ^ 9 ∨ c.second = 59 ∧ c.nano ≤ 10 ^ 9) ∧
    (∀ q, sec = .num q → 0 ≤ q → |(c.second : ℚ) + c.nano / 10 ^ 9 - q| ≤ 1 / 2 / 10 ^ 9) ∧ env.ofChrono c = some t

/-- The lines of an epoch: its own line, and the lines to the next one. -/
structure Group where
  head : Str
  body : List Str

structure GroupOk (env : Env T) (g : Group) (e : Epoch T) : Prop where
  star : Star g.head
  noStar : ∀ l ∈ g.body, ¬ Star l
  time : EpochText env g.head e.time
  positions : List.Forall₂ PosText (g.body.filter IsP) e.positions

/-- The lines of a file that count, up to `EOF`. -/
def content (ls : List Str) : List Str := (ls.map trimEol).takeWhile (fun l => decide (l ≠ "EOF".toList))

/-! ### Proof -/

theorem takeB_spec {s a : Str} {n : Nat} (h : takeB s n = some a) : ∃ b, s = a ++ b ∧ blen a = n := by
  induction s generalizing n a with
  | nil =>
    cases n with
    | zero => simp only [takeB, Option.some.injEq] at h; subst h; exact ⟨[], rfl, rfl⟩
    | succ n => simp [takeB] at h
  | cons c s ih =>
    cases n with
    | zero => simp only [takeB, Option.some.injEq] at h; subst h; exact ⟨c :: s, rfl, rfl⟩
    | succ n =>
      rw [takeB] at h
      split at h
      · rename_i hc
        obtain ⟨a', ha', rfl⟩ := Option.map_eq_some_iff.mp h
        obtain ⟨b, rfl, hb⟩ := ih ha'
        refine ⟨b, rfl, ?_⟩
        simp only [blen, List.map_cons, List.sum_cons] at hb ⊢
        omega
      · simp at h

theorem dropB_spec {s b : Str} {n : Nat} (h : dropB s n = some b) : ∃ a, s = a ++ b ∧ blen a = n := by
  induction s generalizing n with
  | nil =>
    cases n with
    | zero => simp only [dropB, Option.some.injEq] at h; subst h; exact ⟨[], rfl, rfl⟩
    | succ n => simp [dropB] at h
  | cons c s ih =>
    cases n with
    | zero => simp only [dropB, Option.some.injEq] at h; subst h; exact ⟨[], rfl, rfl⟩
    | succ n =>
      rw [dropB] at h
      split at h
      · rename_i hc
        obtain ⟨a, rfl, ha⟩ := ih h
        refine ⟨c :: a, rfl, ?_⟩
        simp only [blen, List.map_cons, List.sum_cons] at ha ⊢
        omega
      · simp at h

theorem dropB_append (a b : Str) : dropB (a ++ b) (blen a) = some b := by
  induction a with
  | nil => simp only [blen, List.map_nil, List.sum_nil, List.nil_append]; cases b <;> rfl
  | cons c a ih =>
    have := Char.utf8Size_pos c
    simp only [blen, List.map_cons, List.sum_cons] at ih ⊢
    obtain ⟨k, hk⟩ : ∃ k, c.utf8Size + (a.map Char.utf8Size).sum = k + 1 := ⟨_, (Nat.succ_pred (by omega)).symm⟩
    rw [List.cons_append, hk, dropB, if_pos (by omega), ← hk, Nat.add_sub_cancel_left]
    exact ih

/-- `get(1..4)` that succeeds leaves `[4..]` in bounds. -/
theorem slice_then_drop {l id : Str} (h : slice l 1 4 = some id) :
    ∃ a tail, l = a ++ (id ++ tail) ∧ blen a = 1 ∧ blen id = 3 ∧ dropB l 4 = some tail := by
  unfold slice at h
  rw [if_pos (by omega)] at h
  obtain ⟨b, hb, ht⟩ := Option.bind_eq_some_iff.mp h
  obtain ⟨a, rfl, ha⟩ := dropB_spec hb
  obtain ⟨tail, rfl, hi⟩ := takeB_spec ht
  refine ⟨a, tail, rfl, ha, hi, ?_⟩
  have := dropB_append (a ++ id) tail
  rw [List.append_assoc, blen_append, ha, hi] at this
  exact this

theorem field_ok {α : Type} {parse : Str → Option α} {no : Nat} {what : String} {raw : Str} {v : α} (h : field parse no what raw = .ok v) :
    parse raw = some v := by
  unfold field Res.ofOption at h
  cases hp : parse raw with
  | none => rw [hp] at h; simp at h
  | some w => rw [hp] at h; simp only [Res.ok.injEq] at h; rw [h]

theorem bind_ok {α β : Type} {r : R α} {f : α → R β} {b : β} (h : r.bind f = .ok b) : ∃ a, r = .ok a ∧ f a = .ok b := by
  cases r with
  | ok a => exact ⟨a, rfl, h⟩
  | err e => simp at h
  | panic => simp at h

theorem pos_sound {l : Str} {no : Nat} {p : Pos} (h : batchPos l no = .ok p) : PosText l p := by
  unfold batchPos at h
  obtain ⟨id, h1, h⟩ := bind_ok h
  have hs : slice l 1 4 = some id := by
    unfold Res.ofOption at h1
    cases hp : slice l 1 4 with
    | none => rw [hp] at h1; simp at h1
    | some w => rw [hp] at h1; simp only [Res.ok.injEq] at h1; rw [h1]
  obtain ⟨a, tail, hl, ha, hi, hd⟩ := slice_then_drop hs
  rw [hd] at h
  obtain ⟨tail', h2, h⟩ := bind_ok h
  simp only [Res.orPanic, Res.ok.injEq] at h2
  subst h2
  split at h
  · rename_i x y z c rest hw
    obtain ⟨x', hx, h⟩ := bind_ok h
    obtain ⟨y', hy, h⟩ := bind_ok h
    obtain ⟨z', hz, h⟩ := bind_ok h
    obtain ⟨c', hc, h⟩ := bind_ok h
    simp only [Res.ok.injEq] at h
    subst h
    exact ⟨a, id, tail, x, y, z, c, rest, hl, ha, hi, rfl, hw, field_ok hx, field_ok hy, field_ok hz, field_ok hc⟩
  · simp at h

/-- Whole seconds and nanoseconds. -/
theorem seconds_close {q : ℚ} (h0 : 0 ≤ q) (h : asU32 (.num q) < 60) :
    |(asU32 (.num q) : ℚ) + (nanosOf (.num q) (asU32 (.num q)) : ℚ) / 10 ^ 9 - q| ≤ 1 / 2 / 10 ^ 9 ∧
    nanosOf (.num q) (asU32 (.num q)) ≤ 10 ^ 9 := by
  have hf : 0 ≤ ⌊q⌋ := Int.floor_nonneg.mpr h0
  have e1 : asU32 (.num q) = ⌊q⌋.toNat := by
    unfold asU32 at h ⊢
    simp only at h ⊢
    omega
  have e2 : ((asU32 (.num q) : ℕ) : ℚ) = (⌊q⌋ : ℚ) := by
    rw [e1]
    have : ((⌊q⌋.toNat : ℤ) : ℚ) = (⌊q⌋ : ℚ) := by rw [Int.toNat_of_nonneg hf]
    exact_mod_cast this
  have f0 := Int.floor_le q
  have f1 := Int.lt_floor_add_one q
  have hd0 : 0 ≤ (q - asU32 (.num q)) * 10 ^ 9 := by
    rw [e2]
    exact mul_nonneg (by linarith) (by positivity)
  have hr := abs_le.mp (roundHalfUp_spec _ hd0)
  have hle : roundHalfUp ((q - asU32 (.num q)) * 10 ^ 9) ≤ 10 ^ 9 := by
    have hlt : (q - asU32 (.num q)) * 10 ^ 9 < 10 ^ 9 := by
      rw [e2]; nlinarith
    unfold roundHalfUp
    have : ⌊(q - asU32 (.num q)) * 10 ^ 9 + 1 / 2⌋ < 10 ^ 9 + 1 := by
      rw [Int.floor_lt]
      push_cast
      linarith
    omega
  have e3 : nanosOf (.num q) (asU32 (.num q)) = roundHalfUp ((q - asU32 (.num q)) * 10 ^ 9) := by
    unfold nanosOf
    simp only
    omega
  rw [e3]
  refine ⟨?_, hle⟩
  generalize (roundHalfUp ((q - asU32 (.num q)) * 10 ^ 9) : ℚ) = k at hr
  have : (asU32 (.num q) : ℚ) + k / 10 ^ 9 - q = (k - (q - asU32 (.num q)) * 10 ^ 9) / 10 ^ 9 := by
    field_simp
    ring
  rw [this, abs_div, abs_of_pos (show (0 : ℚ) < 10 ^ 9 by positivity)]
  exact div_le_div_of_nonneg_right (abs_le.mpr hr) (by positivity)

theorem nanos_le (s : F64) (h : asU32 s < 60) : nanosOf s (asU32 s) ≤ 10 ^ 9 := by
  cases s with
  | num q =>
    by_cases h0 : 0 ≤ q
    · exact (seconds_close h0 h).2
    · have : ⌊q⌋ < 0 := by rw [Int.floor_lt]; push_cast; linarith
      have e1 : asU32 (.num q) = 0 := by
        unfold asU32
        simp only
        omega
      rw [e1]
      unfold nanosOf roundHalfUp
      simp only
      have : ⌊(q - (0 : ℕ)) * 10 ^ 9 + 1 / 2⌋ ≤ 0 := by
        rw [← Int.lt_add_one_iff, Int.floor_lt]
        push_cast
        nlinarith
      omega
  | inf b => cases b <;> simp [asU32] at h ⊢ <;> simp [nanosOf, asU32]
  | nan => simp [nanosOf, asU32]

theorem epoch_sound {env : Env T} {l : Str} {no : Nat} {e : Epoch T} (hl : Star l) (h : batchEpoch env l no = .ok e) :
    EpochText env l e.time ∧ e.positions = [] := by
  obtain ⟨t, rfl⟩ : ∃ t, l = '*' :: t := by
    cases l with
    | nil => simp [Star] at hl
    | cons c t => simp only [Star, List.head?_cons, Option.some.injEq] at hl; exact ⟨t, by rw [hl]⟩
  have hsp : (stripPrefix ['*'] ('*' :: t)).getD ('*' :: t) = t := by simp [stripPrefix]
  unfold batchEpoch at h
  rw [hsp] at h
  split at h
  · rename_i y mo d hh mi s rest hw
    obtain ⟨y', hy, h⟩ := bind_ok h
    obtain ⟨mo', hmo, h⟩ := bind_ok h
    obtain ⟨d', hd, h⟩ := bind_ok h
    obtain ⟨h', hhh, h⟩ := bind_ok h
    obtain ⟨mi', hmi, h⟩ := bind_ok h
    obtain ⟨s', hs, h⟩ := bind_ok h
    obtain ⟨t', ht, h⟩ := bind_ok h
    simp only [Res.ok.injEq] at h
    subst h
    refine ⟨?_, rfl⟩
    unfold civilToUtc at ht
    dsimp only at ht
    split at ht
    · rename_i hok
      rw [Bool.and_eq_true] at hok
      obtain ⟨hdate, htime⟩ := hok
      unfold timeOk at htime
      simp only [Bool.and_eq_true, Bool.or_eq_true, decide_eq_true_eq] at htime
      obtain ⟨⟨⟨⟨t1, t2⟩, t3⟩, t4⟩, t5⟩ := htime
      have hn := nanos_le s' t3
      refine ⟨y, mo, d, hh, mi, s, rest, ⟨y', mo', d', h', mi', asU32 s', nanosOf s' (asU32 s')⟩, s', hw, field_ok hy, field_ok hmo, field_ok hd,
        field_ok hhh, field_ok hmi, field_ok hs, hdate, t1, t2, t3, ?_, ?_, ?_⟩
      · rcases t4 with t4 | t4
        · exact Or.inl t4
        · exact Or.inr ⟨t4, hn⟩
      · rintro q rfl h0
        exact (seconds_close h0 t3).1
      · unfold Res.ofOption at ht
        cases ho : env.ofChrono ⟨y', mo', d', h', mi', asU32 s', nanosOf s' (asU32 s')⟩ with
        | none => rw [ho] at ht; simp at ht
        | some w => rw [ho] at ht; simp only [Res.ok.injEq] at ht; simp only [ht]
    · simp at ht
  · simp at h

theorem group_push {env : Env T} {g : Group} {e : Epoch T} {l : Str} {p : Pos} (h : GroupOk env g e) (hl : ¬ Star l) (hp : IsP l = true)
    (ht : PosText l p) : GroupOk env ⟨g.head, g.body ++ [l]⟩ (pushPos e p) := by
  refine ⟨h.star, ?_, h.time, ?_⟩
  · intro l' hl'
    rcases List.mem_append.mp hl' with h' | h'
    · exact h.noStar l' h'
    · obtain rfl := List.mem_singleton.mp h'; exact hl
  · show List.Forall₂ PosText ((g.body ++ [l]).filter IsP) (e.positions ++ [p])
    rw [List.filter_append, List.filter_singleton, hp, cond_true]
    exact List.rel_append h.positions (List.Forall₂.cons ht List.Forall₂.nil)

theorem group_skip {env : Env T} {g : Group} {e : Epoch T} {l : Str} (h : GroupOk env g e) (hl : ¬ Star l) (hp : IsP l = false) :
    GroupOk env ⟨g.head, g.body ++ [l]⟩ e := by
  refine ⟨h.star, ?_, h.time, ?_⟩
  · intro l' hl'
    rcases List.mem_append.mp hl' with h' | h'
    · exact h.noStar l' h'
    · obtain rfl := List.mem_singleton.mp h'; exact hl
  · show List.Forall₂ PosText ((g.body ++ [l]).filter IsP) e.positions
    rw [List.filter_append, List.filter_singleton, hp, cond_false, List.append_nil]
    exact h.positions

theorem content_cons {s : Str} {ls : List Str} (h : trimEol s ≠ "EOF".toList) : content (s :: ls) = trimEol s :: content ls := by
  unfold content
  rw [List.map_cons, List.takeWhile_cons, if_pos (by simpa using h)]

def groupLines (g : Group) : List Str := g.head :: g.body

/-- The part of a file after its first epoch line: given the groups so far. -/
theorem body_sound {env : Env T} {fails : Bool} {ls : List Str} {header : List Str} {no : Nat} {epochs : List (Epoch T)} {e : Epoch T} {r : Record T}
    {gs : List Group} {g : Group} (hgs : List.Forall₂ (GroupOk env) gs epochs) (hg : GroupOk env g e)
    (h : batchLoop env fails ls no header epochs false (some e) = .ok r) :
    r.header = header ∧ ∃ gs', gs'.flatMap groupLines = (gs ++ [g]).flatMap groupLines ++ content ls ∧
      List.Forall₂ (GroupOk env) gs' r.epochs := by
  induction ls generalizing no epochs e gs g with
  | nil =>
    unfold batchLoop at h
    split at h
    · simp at h
    · simp only [Res.ok.injEq] at h
      subst h
      exact ⟨rfl, gs ++ [g], by simp [content], List.rel_append hgs (List.Forall₂.cons hg List.Forall₂.nil)⟩
  | cons s ls ih =>
    unfold batchLoop at h
    dsimp only at h
    split at h
    · rename_i hE
      simp only [Res.ok.injEq] at h
      subst h
      refine ⟨rfl, gs ++ [g], ?_, List.rel_append hgs (List.Forall₂.cons hg List.Forall₂.nil)⟩
      simp [content, hE]
    · rename_i hE
      rw [content_cons hE]
      split at h
      · rename_i hc; simp at hc
      · split at h
        · rename_i hS
          obtain ⟨e', he', h⟩ := bind_ok h
          obtain ⟨t1, t2⟩ := epoch_sound hS he'
          have hg' : GroupOk env ⟨trimEol s, []⟩ e' := ⟨hS, by simp, t1, by rw [t2]; exact List.Forall₂.nil⟩
          obtain ⟨r1, gs', r2, r3⟩ := ih (gs := gs ++ [g]) (g := ⟨trimEol s, []⟩) (List.rel_append hgs (List.Forall₂.cons hg List.Forall₂.nil)) hg' h
          refine ⟨r1, gs', ?_, r3⟩
          rw [r2]
          simp [groupLines]
        · rename_i hS
          split at h
          · rename_i hP
            obtain ⟨p, hp, h⟩ := bind_ok h
            obtain ⟨r1, gs', r2, r3⟩ := ih hgs (group_push hg hS (by simpa [IsP] using hP) (pos_sound hp)) h
            refine ⟨r1, gs', ?_, r3⟩
            rw [r2]
            simp [groupLines]
          · rename_i hP
            obtain ⟨r1, gs', r2, r3⟩ := ih hgs (group_skip hg hS (by simpa [IsP] using hP)) h
            refine ⟨r1, gs', ?_, r3⟩
            rw [r2]
            simp [groupLines]

theorem header_sound {env : Env T} {fails : Bool} {ls : List Str} {header : List Str} {no : Nat} {r : Record T}
    (h : batchLoop env fails ls no header [] true none = .ok r) :
    ∃ hs gs, r.header = header ++ hs ∧ content ls = hs ++ gs.flatMap groupLines ∧ (∀ l ∈ hs, ¬ Star l) ∧
      List.Forall₂ (GroupOk env) gs r.epochs := by
  induction ls generalizing no header with
  | nil =>
    unfold batchLoop at h
    split at h
    · simp at h
    · simp only [Res.ok.injEq] at h
      subst h
      exact ⟨[], [], by simp, by simp [content], by simp, List.Forall₂.nil⟩
  | cons s ls ih =>
    unfold batchLoop at h
    dsimp only at h
    split at h
    · rename_i hE
      simp only [Res.ok.injEq] at h
      subst h
      exact ⟨[], [], by simp, by simp [content, hE], by simp, List.Forall₂.nil⟩
    · rename_i hE
      rw [content_cons hE]
      split at h
      · rename_i hc
        obtain ⟨hs, gs, r1, r2, r3, r4⟩ := ih h
        refine ⟨trimEol s :: hs, gs, by rw [r1]; simp, by rw [r2]; rfl, ?_, r4⟩
        intro l hl
        rcases List.mem_cons.mp hl with rfl | hl
        · exact hc.2
        · exact r3 l hl
      · rename_i hc
        have hS : (trimEol s).head? = some '*' := by
          by_contra hn; exact hc ⟨rfl, hn⟩
        rw [if_pos hS] at h
        obtain ⟨e', he', h⟩ := bind_ok h
        obtain ⟨t1, t2⟩ := epoch_sound hS he'
        have hg' : GroupOk env ⟨trimEol s, []⟩ e' := ⟨hS, by simp, t1, by rw [t2]; exact List.Forall₂.nil⟩
        obtain ⟨r1, gs', r2, r3⟩ := body_sound (gs := []) List.Forall₂.nil hg' h
        refine ⟨[], gs', by rw [r1]; simp, ?_, by simp, r3⟩
        rw [r2]
        simp [groupLines]

/-! ### C67 -/

/-- A record that is read is the content of the file up to `EOF`: the header is the lines before the first epoch line;
every epoch line gives one epoch, in order, with the date and time written; every position line gives one
position, in order, in the epoch of the epoch line before it. -/
theorem read_sound {env : Env T} {src : Src} {r : Record T} (h : readSp3 env src = .ok r) :
    ∃ gs : List Group, content src.lines = r.header ++ gs.flatMap groupLines ∧ (∀ l ∈ r.header, ¬ Star l) ∧
      List.Forall₂ (GroupOk env) gs r.epochs := by
  obtain ⟨hs, gs, r1, r2, r3, r4⟩ := header_sound h
  rw [List.nil_append] at r1
  exact ⟨gs, by rw [r1, r2], by rw [r1]; exact r3, r4⟩

/-- No input makes the reader panic. -/
theorem read_no_panic (env : Env T) (src : Src) : readSp3 env src ≠ .panic := by
  have hf : ∀ {α : Type} (parse : Str → Option α) no what raw, field parse no what raw ≠ .panic := by
    intro α parse no what raw
    unfold field Res.ofOption
    cases parse raw <;> simp
  have hb : ∀ {α β : Type} {r : R α} {f : α → R β}, r ≠ .panic → (∀ a, r = .ok a → f a ≠ .panic) → r.bind f ≠ .panic := by
    intro α β r f h1 h2
    cases r with
    | ok a => exact h2 a rfl
    | err e => simp
    | panic => exact absurd rfl h1
  have ho : ∀ {α : Type} (e : Err) (o : Option α), (Res.ofOption e o : R α) ≠ .panic := by
    intro α e o
    unfold Res.ofOption
    cases o <;> simp
  have hp : ∀ l no, batchPos l no ≠ .panic := by
    intro l no
    unfold batchPos
    refine hb (ho _ _) (fun id hid => ?_)
    have hs : slice l 1 4 = some id := by
      unfold Res.ofOption at hid
      cases hp : slice l 1 4 with
      | none => rw [hp] at hid; simp at hid
      | some w => rw [hp] at hid; simp only [Res.ok.injEq] at hid; rw [hid]
    obtain ⟨a, tail, -, -, -, hd⟩ := slice_then_drop hs
    rw [hd]
    simp only [Res.orPanic, Res.bind]
    split
    · exact hb (hf _ _ _ _) (fun _ _ => hb (hf _ _ _ _) (fun _ _ => hb (hf _ _ _ _) (fun _ _ => hb (hf _ _ _ _) (fun _ _ => by simp))))
    · simp
  have he : ∀ l no, batchEpoch env l no ≠ .panic := by
    intro l no
    unfold batchEpoch
    split
    · refine hb (hf _ _ _ _) (fun _ _ => hb (hf _ _ _ _) (fun _ _ => hb (hf _ _ _ _) (fun _ _ => hb (hf _ _ _ _) (fun _ _ =>
        hb (hf _ _ _ _) (fun _ _ => hb (hf _ _ _ _) (fun _ _ => hb ?_ (fun _ _ => by simp)))))))
      unfold civilToUtc
      dsimp only
      split
      · exact ho _ _
      · simp
    · simp
  have hl : ∀ ls no header epochs inHeader current, batchLoop env src.fails ls no header epochs inHeader current ≠ .panic := by
    intro ls
    induction ls with
    | nil => intro no header epochs inHeader current; unfold batchLoop; split <;> simp
    | cons s ls ih =>
      intro no header epochs inHeader current
      unfold batchLoop
      dsimp only
      split
      · simp
      · split
        · exact ih _ _ _ _ _
        · split
          · exact hb (he _ _) (fun _ _ => ih _ _ _ _ _)
          · split
            · split
              · simp
              · exact hb (hp _ _) (fun _ _ => ih _ _ _ _ _)
            · exact ih _ _ _ _ _
  exact hl _ _ _ _ _ _

end Verif.Sp3.Props
