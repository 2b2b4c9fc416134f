import Verif.Obs.Model
import Verif.Sp3.Write
import Verif.Rinex.Write
import Verif.Cpf.Props
import Mathlib.Data.List.Sort
import Mathlib.Data.List.TakeWhile
import Mathlib.Tactic.Linarith
import Mathlib.Tactic.NormNum
import Mathlib.Tactic.Ring

/-! Specification and lemmas for observation files. -/
namespace Verif.Obs.Props
open Verif.Text Verif.Sp3 Verif.Rinex Verif.Obs
open Verif.Sp3.Props (Good plainEnv plainEnv_good rawLines_unlines words_pad words_pad_last intStr_ne intStr_ws natStr_ws i32_intStr u32_natStr fmtFixed_ne
  fmtF64_chars fmtF64_ne words_replicate)

/-! ### Specification -/

/-- The number read is the number written, to half a unit of the last decimal. -/
def Near (p : Nat) (a b : F64) : Prop :=
  match a with
  | .num q => ∃ q', b = .num q' ∧ |q' - q| ≤ 1 / 2 / 10 ^ p
  | other => b = other

def NearOpt (p : Nat) : Option F64 → Option F64 → Prop
  | some a, some b => Near p a b
  | none, none => True
  | _, _ => False

/-- The observation codes declared for a satellite, by its first letter. -/
def declared (types : Map Char (List Str)) (sat : Str) : List Str :=
  match sat with
  | c :: _ => (get types c).getD []
  | [] => []

/-- The values of a satellite come back, for the declared codes, and there are no others. -/
def CloseVals (codes : List Str) (a b : Map Str F64) : Prop :=
  ∀ code, (code ∈ codes → NearOpt 3 (get a code) (get b code)) ∧ (code ∉ codes → get b code = none)

variable {T : Type}

/-- The same time, the same satellites, and their values. -/
structure CloseEpoch (types : Map Char (List Str)) (a b : Epoch T) : Prop where
  time : b.time = a.time
  none : ∀ sat, get a.sats sat = none → get b.sats sat = none
  vals : ∀ sat va, get a.sats sat = some va → ∃ vb, get b.sats sat = some vb ∧ CloseVals (declared types sat) va vb

structure CloseObs (a b : Obs T) : Prop where
  marker : b.marker = a.marker
  approx : match a.approx, b.approx with
    | some (x, y, z), some (x', y', z') => Near 4 x x' ∧ Near 4 y y' ∧ Near 4 z z'
    | none, none => True
    | _, _ => False
  interval : NearOpt 3 a.interval b.interval
  types : ∀ s, get b.types s = get a.types s
  epochs : List.Forall₂ (CloseEpoch a.types) a.epochs b.epochs

/-- An observation code: one to three ASCII characters, no white space. -/
def Code (t : Str) : Prop := t ≠ [] ∧ t.length ≤ 3 ∧ ∀ c ∈ t, c.toNat < 128 ∧ isWs c = false

/-- A satellite: three ASCII characters, no white space. -/
def Sat (s : Str) : Prop := s.length = 3 ∧ ∀ c ∈ s, c.toNat < 128 ∧ isWs c = false

/-- A value that fits into its fourteen columns. -/
def InColumns : F64 → Prop
  | .num q => -999999999 ≤ q ∧ q ≤ 9999999999
  | _ => True

/-- The files that come back. -/
structure Fits (env : Env T) (o : Obs T) : Prop where
  marker : Tight o.marker ∧ '\n' ∉ o.marker ∧ blen o.marker ≤ 60
  approx : ∀ x y z, o.approx = some (x, y, z) → ∃ a b c : ℚ, x = .num a ∧ y = .num b ∧ z = .num c ∧ |a| ≤ 9999999 ∧ |b| ≤ 9999999 ∧ |c| ≤ 9999999
  interval : ∀ v, o.interval = some v → ∃ q : ℚ, v = .num q ∧ |q| ≤ 10 ^ 40
  systems : (keys o.types).Nodup ∧ ∀ s ∈ keys o.types, s.isAlpha = true
  codes : ∀ s ts, get o.types s = some ts → ts.length ≤ 99999 ∧ ∀ t ∈ ts, Code t
  times : ∀ e ∈ o.epochs, ∃ c, env.toChrono e.time = some c ∧ c.nano % 100 = 0 ∧ c.nano < 10 ^ 9
  sats : ∀ e ∈ o.epochs, (keys e.sats).Nodup ∧ (∀ s ∈ keys e.sats, Sat s) ∧ e.sats.length < 2 ^ 64
  values : ∀ e ∈ o.epochs, ∀ s vals, get e.sats s = some vals → ∀ t ∈ declared o.types s, ∀ v, get vals t = some v → InColumns v

/-! ### Maps -/

section
variable {K V : Type} [DecidableEq K]

theorem get_nil (k : K) : get ([] : Map K V) k = none := rfl

theorem get_cons (p : K × V) (m : Map K V) (k : K) : get (p :: m) k = if p.1 = k then some p.2 else get m k := by
  unfold get
  by_cases h : p.1 = k <;> simp [List.find?_cons, h]

theorem get_append (a b : Map K V) (k : K) : get (a ++ b) k = (get a k).or (get b k) := by
  induction a with
  | nil => simp [get_nil]
  | cons p a ih =>
    rw [List.cons_append, get_cons, get_cons, ih]
    by_cases h : p.1 = k <;> simp [h]

theorem get_filter (m : Map K V) (k k' : K) : get (m.filter (fun p => !decide (p.1 = k))) k' = if k' = k then none else get m k' := by
  induction m with
  | nil => simp [get_nil]
  | cons p m ih =>
    rw [List.filter_cons, get_cons]
    by_cases h : p.1 = k
    · simp only [h, decide_true, Bool.not_true, Bool.false_eq_true, if_false, ih]
      by_cases h' : k' = k
      · simp [h']
      · simp [h', Ne.symm h']
    · simp only [h, decide_false, Bool.not_false, if_true, get_cons, ih]
      by_cases h' : k' = k
      · subst h'; simp [h]
      · simp [h']

theorem get_insert (m : Map K V) (k k' : K) (v : V) : get (insert m k v) k' = if k' = k then some v else get m k' := by
  unfold insert
  rw [get_append, get_filter, get_cons, get_nil]
  by_cases h : k' = k
  · simp [h]
  · simp [h, Ne.symm h]

theorem get_none {m : Map K V} {k : K} : get m k = none ↔ k ∉ keys m := by
  induction m with
  | nil => simp [get_nil, keys]
  | cons p m ih =>
    rw [get_cons]
    by_cases h : p.1 = k
    · simp [h, keys]
    · simp only [h, if_false, ih, keys, List.map_cons, List.mem_cons, not_or]
      constructor
      · exact fun hh => ⟨Ne.symm h, hh⟩
      · exact fun hh => hh.2

theorem get_some_of_mem {m : Map K V} {k : K} (h : k ∈ keys m) : ∃ v, get m k = some v := by
  cases hg : get m k with
  | none => exact absurd h (get_none.mp hg)
  | some v => exact ⟨v, rfl⟩

theorem get_foldl (f : K → V) (ks : List K) : ∀ (acc : Map K V) (k : K),
    get (ks.foldl (fun acc k => insert acc k (f k)) acc) k = if k ∈ ks then some (f k) else get acc k := by
  induction ks with
  | nil => intro acc k; simp
  | cons x ks ih =>
    intro acc k
    rw [List.foldl_cons, ih, get_insert]
    by_cases h1 : k ∈ ks
    · simp [h1]
    · by_cases h2 : k = x
      · subst h2; simp [h1]
      · simp [h1, h2]
end

/-! ### Text -/

theorem trimEnd_ws {s t : Str} (h : ∀ c ∈ t, isWs c = true) : trimEnd (s ++ t) = trimEnd s := by
  unfold trimEnd
  rw [List.reverse_append, List.dropWhile_append_of_pos (by intro c hc; exact h c (List.mem_reverse.mp hc))]

theorem trimEnd_keep {s t : Str} (h : trimEnd t ≠ []) : trimEnd (s ++ t) = s ++ trimEnd t := by
  unfold trimEnd at *
  rw [List.reverse_append, List.dropWhile_append]
  have : (t.reverse.dropWhile isWs).isEmpty = false := by
    cases hq : t.reverse.dropWhile isWs with
    | nil => rw [hq] at h; exact absurd rfl h
    | cons a b => rfl
  rw [this]
  simp

theorem trimEnd_nil {t : Str} : trimEnd t = [] ↔ ∀ c ∈ t, isWs c = true := by
  unfold trimEnd
  rw [List.reverse_eq_nil_iff, List.dropWhile_eq_nil_iff]
  simp

theorem trimEnd_word {s t : Str} (hs : s ≠ []) (hw : ∀ c ∈ s, isWs c = false) : trimEnd (s ++ t) = s ++ trimEnd t := by
  by_cases h : trimEnd t = []
  · rw [h, List.append_nil, trimEnd_ws (trimEnd_nil.mp h)]
    exact trimEnd_tight (fun c hc => hw c (List.mem_of_mem_getLast? hc))
  · exact trimEnd_keep h

theorem trimEnd_idem (s : Str) : trimEnd (trimEnd s) = trimEnd s := by
  unfold trimEnd
  rw [List.reverse_reverse]
  congr 1
  induction s.reverse with
  | nil => rfl
  | cons c t ih =>
    rw [List.dropWhile_cons]
    by_cases h : isWs c = true
    · rw [if_pos h]; exact ih
    · rw [if_neg h, List.dropWhile_cons, if_neg h]

theorem trim_label {l : Str} (hl : Tight l) (n : Nat) : trim (List.replicate n ' ' ++ (l ++ ['\n'])) = l := by
  unfold trim
  rw [trimStart_replicate]
  by_cases hne : l = []
  · subst hne; decide
  · have : trimStart (l ++ ['\n']) = l ++ ['\n'] := by
      apply trimStart_tight
      intro c hc
      apply hl.1 c
      cases l with
      | nil => exact absurd rfl hne
      | cons a b => exact hc
    rw [this, trimEnd_ws (by intro c hc; rw [List.mem_singleton] at hc; subst hc; decide)]
    exact trimEnd_tight hl.2

theorem length_le_blen (s : Str) : s.length ≤ blen s := by
  unfold blen
  induction s with
  | nil => simp
  | cons c s ih =>
    have := Char.utf8Size_pos c
    simp only [List.map_cons, List.sum_cons, List.length_cons]
    omega

theorem blen_spaces (n : Nat) : blen (List.replicate n ' ') = n := by
  rw [blen_ascii (isAscii_replicate n ' ' (by decide)), List.length_replicate]

/-- The parts of a header line. -/
theorem hline_parts {body label : Str} (hb : blen body ≤ 60) (hl : Tight label) :
    hline body label = .ok (padRight 60 body ++ label) ∧ bodyOf (padRight 60 body ++ label ++ ['\n']) = body ++ List.replicate (60 - blen body) ' ' ∧
      labelOf (padRight 60 body ++ label ++ ['\n']) = label := by
  have hlen := length_le_blen body
  have e : padRight 60 body ++ label ++ ['\n'] =
      (body ++ List.replicate (60 - blen body) ' ') ++ (List.replicate (blen body - body.length) ' ' ++ (label ++ ['\n'])) := by
    unfold padRight
    rw [show 60 - body.length = (60 - blen body) + (blen body - body.length) by omega, ← List.replicate_append_replicate]
    simp only [List.append_assoc]
  have hk : blen (body ++ List.replicate (60 - blen body) ' ') = 60 := by
    rw [blen_append, blen_spaces]; omega
  refine ⟨?_, ?_, ?_⟩
  · unfold hline
    rw [if_neg (by omega)]
    rfl
  · unfold bodyOf
    rw [e, show takeB _ 60 = _ from hk ▸ Verif.Rinex.Props.takeB_append _ _]
    rfl
  · unfold labelOf
    rw [e, show dropB _ 60 = _ from hk ▸ Verif.Sp3.Props.dropB_append _ _, Option.getD_some]
    exact trim_label hl _

theorem words_spaces (s : Str) (n : Nat) : words (s ++ List.replicate n ' ') = words s := by
  cases n with
  | zero => simp
  | succ n =>
    rw [List.replicate_succ, Verif.Cpf.Props.words_append (by decide)]
    have := Verif.Cpf.Props.words_all_ws (t := List.replicate n ' ') (by intro c hc; rw [List.eq_of_mem_replicate hc]; decide)
    rw [this, List.append_nil]

/-! ### Numbers -/

/-- What a printed number reads as. -/
def back (p : Nat) : F64 → F64
  | .num q => .num (fixedValue p q)
  | other => other

theorem parse_back (p : Nat) (v : F64) : parseFloat (fmtF64 p v) = some (back p v) := by
  cases v with
  | num q => exact parseFloat_fmtFixed p q
  | inf b =>
    cases b
    · exact (by decide : parseFloat "inf".toList = some (.inf false))
    · exact (by decide : parseFloat "-inf".toList = some (.inf true))
  | nan => exact (by decide : parseFloat "NaN".toList = some .nan)

theorem near_back (p : Nat) (v : F64) : Near p v (back p v) := by
  cases v with
  | num q => exact ⟨_, rfl, fixedValue_close p q⟩
  | inf b => rfl
  | nan => rfl

/-- The length of a printed number. -/
theorem fmtFixed_length {p w : Nat} {q : ℚ} (h : |q| ≤ 10 ^ (w + 1) - 1) : (fmtFixed p q).length ≤ (if q < 0 then 1 else 0) + (p + w + 2) := by
  have hk : roundHalfEven (|q| * 10 ^ p) < 10 ^ (p + w + 1) := by
    have h0 : 0 ≤ |q| * 10 ^ p := by positivity
    have hr := (abs_le.mp (roundHalfEven_spec _ h0)).2
    have h1 : |q| * 10 ^ p ≤ (10 ^ (w + 1) - 1) * 10 ^ p := mul_le_mul_of_nonneg_right h (by positivity)
    have h2 : (1 : ℚ) ≤ 10 ^ p := one_le_pow₀ (by norm_num)
    have h3 : ((10 : ℚ) ^ (w + 1) - 1) * 10 ^ p = 10 ^ (p + w + 1) - 10 ^ p := by ring
    have : ((roundHalfEven (|q| * 10 ^ p) : ℕ) : ℚ) < ((10 ^ (p + w + 1) : ℕ) : ℚ) := by
      push_cast
      linarith
    exact_mod_cast this
  have := fixedStr_length_le p w _ hk
  unfold fmtFixed
  split_ifs <;> simp <;> omega

end Verif.Obs.Props
