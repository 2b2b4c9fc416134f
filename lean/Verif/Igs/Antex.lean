import Verif.Igs.Model
import Verif.Kvn.Opm
import Mathlib.Data.List.Basic

/-
Writing and reading antenna phase centre offsets.
-/
namespace Verif.Igs.Props
open Verif.Text Verif.Igs
open Verif.Kvn.Props (Near fmt_back)

/-! ### Specification -/

/-- The value of a key. -/
def value {α : Type} (m : Entries α) (k : Str) : Option α := (m.find? (fun p => decide (p.1 = k))).map Prod.snd

/-- The entries are those of a map: no key twice. -/
def IsMap {α : Type} (m : Entries α) : Prop := (m.map Prod.fst).Nodup

/-- A name that fits the 60 columns of the format: blanks only inside, no line feed, at most 60 bytes. -/
structure NameOk (s : Str) : Prop where
  tight : Tight s
  line : '\n' ∉ s
  fits : blen s ≤ 60

/-- A frequency code: one word. -/
structure FreqOk (s : Str) : Prop where
  some : s ≠ []
  word : ∀ c ∈ s, isWs c = false
  fits : blen s + (3 - s.length) ≤ 57

/-- An offset that fits the columns: the numbers are of at most nine columns. -/
structure PcoOk (p : Pco) : Prop where
  n : (Sp3.fmtF64 2 p.n).length ≤ 9
  e : (Sp3.fmtF64 2 p.e).length ≤ 9
  u : (Sp3.fmtF64 2 p.u).length ≤ 9

structure CatOk (cat : Entries (Entries Pco)) : Prop where
  map : IsMap cat
  names : ∀ a ∈ cat, NameOk a.1
  maps : ∀ a ∈ cat, IsMap a.2
  freqs : ∀ a ∈ cat, ∀ p ∈ a.2, FreqOk p.1
  pcos : ∀ a ∈ cat, ∀ p ∈ a.2, PcoOk p.2

/-- The offset read is the offset written to half a unit of the second decimal (5 µm). -/
structure Close (p q : Pco) : Prop where
  n : Near (1 / 200) p.n q.n
  e : Near (1 / 200) p.e q.e
  u : Near (1 / 200) p.u q.u

/-! ### Columns -/

theorem takeB_append (s t : Str) (n : Nat) : takeB (s ++ t) (blen s + n) = (takeB t n).map (s ++ ·) := by
  induction s with
  | nil => simp [blen]
  | cons c s ih =>
    have hc : 0 < c.utf8Size := c.utf8Size_pos
    have e : blen (c :: s) + n = c.utf8Size + (blen s + n) := by simp [blen]; omega
    rw [e]
    obtain ⟨k, hk⟩ : ∃ k, c.utf8Size + (blen s + n) = k + 1 := ⟨c.utf8Size + (blen s + n) - 1, by omega⟩
    rw [hk, List.cons_append]
    conv_lhs => unfold takeB
    rw [if_pos (by omega), show k + 1 - c.utf8Size = blen s + n by omega, ih]
    cases takeB t n <;> simp

theorem dropB_append (s t : Str) (n : Nat) : dropB (s ++ t) (blen s + n) = dropB t n := by
  induction s with
  | nil => simp [blen]
  | cons c s ih =>
    have hc : 0 < c.utf8Size := c.utf8Size_pos
    have e : blen (c :: s) + n = c.utf8Size + (blen s + n) := by simp [blen]; omega
    rw [e]
    obtain ⟨k, hk⟩ : ∃ k, c.utf8Size + (blen s + n) = k + 1 := ⟨c.utf8Size + (blen s + n) - 1, by omega⟩
    rw [hk, List.cons_append]
    conv_lhs => unfold dropB
    rw [if_pos (by omega), show k + 1 - c.utf8Size = blen s + n by omega, ih]

theorem length_le_blen (s : Str) : s.length ≤ blen s := by
  induction s with
  | nil => simp [blen]
  | cons c s ih =>
    have hc : 0 < c.utf8Size := c.utf8Size_pos
    have e : blen (c :: s) = c.utf8Size + blen s := by simp [blen]
    rw [e, List.length_cons]
    omega

theorem blank_ascii (n : Nat) : isAscii (List.replicate n ' ') := isAscii_replicate n _ (by decide)

/-- A body of at most 60 bytes and a label come back. -/
theorem split_header {body : Str} {label : String} (hb : blen body ≤ 60) (hl : Tight label.toList) :
    splitLine (padRight 60 body ++ label.toList) = (label.toList, body ++ List.replicate (60 - blen body) ' ') := by
  have hlen := length_le_blen body
  unfold splitLine padRight
  have e : body ++ List.replicate (60 - body.length) ' ' ++ label.toList =
      body ++ (List.replicate (60 - blen body) ' ' ++ (List.replicate (blen body - body.length) ' ' ++ label.toList)) := by
    rw [List.append_assoc]
    congr 1
    rw [← List.append_assoc, List.replicate_append_replicate]
    congr 2
    omega
  have l1 : (List.replicate (60 - blen body) ' ').length = 60 - blen body := by simp
  have b1 : blen (List.replicate (60 - blen body) ' ') = 60 - blen body := by rw [blen_ascii (blank_ascii _), l1]
  obtain ⟨k, hk⟩ : ∃ k, k = 60 - blen body := ⟨_, rfl⟩
  have h60 : blen body + (k + 0) = 60 := by omega
  rw [← hk] at e l1 b1 ⊢
  have d : dropB (body ++ List.replicate (60 - body.length) ' ' ++ label.toList) 60 = some (List.replicate (blen body - body.length) ' ' ++ label.toList) := by
    have h := dropB_append body (List.replicate k ' ' ++ (List.replicate (blen body - body.length) ' ' ++ label.toList)) (k + 0)
    have h' := dropB_append (List.replicate k ' ') (List.replicate (blen body - body.length) ' ' ++ label.toList) 0
    rw [b1] at h'
    rw [h60, h'] at h
    rw [e, h, dropB]
  have t : takeB (body ++ List.replicate (60 - body.length) ' ' ++ label.toList) 60 = some (body ++ List.replicate k ' ') := by
    have h := takeB_append body (List.replicate k ' ' ++ (List.replicate (blen body - body.length) ' ' ++ label.toList)) (k + 0)
    have h' := takeB_append (List.replicate k ' ') (List.replicate (blen body - body.length) ' ' ++ label.toList) 0
    rw [b1] at h'
    rw [h60, h', takeB] at h
    rw [e, h]
    simp
  rw [d, t]
  simp only [Option.getD_some]
  congr 1
  unfold trim
  rw [trimStart_replicate, ← trim, trim_tight hl]

theorem header_fits {body : Str} {label : String} (hb : blen body ≤ 60) : headerLine body label = some (padRight 60 body ++ label.toList) := by
  unfold headerLine
  rw [if_neg (by omega)]

/-- What `antexLine` sees of a written line. -/
theorem antex_line {body : Str} {label : String} (hb : blen body ≤ 60) (hl : Tight label.toList) (s : ASt) :
    antexLine s (padRight 60 body ++ label.toList) =
      (let l := label.toList
       let b := body ++ List.replicate (60 - blen body) ' '
       if l = "START OF ANTENNA".toList then { s with antenna := none, pcos := fun _ => none, freq := none }
       else if l = "TYPE / SERIAL NO".toList then { s with antenna := some (trim b) }
       else if l = "START OF FREQUENCY".toList then { s with freq := (words b).head? }
       else if l = "NORTH / EAST / UP".toList then
         match s.freq with
         | some f =>
           match (words b).filterMap parseFloat with
           | [n, e, u] => { s with pcos := put s.pcos f ⟨n, e, u⟩ }
           | _ => s
         | none => s
       else if l = "END OF FREQUENCY".toList then { s with freq := none }
       else if l = "END OF ANTENNA".toList then
         match s.antenna with
         | some name => { s with cat := put s.cat name s.pcos, antenna := none, pcos := fun _ => none }
         | none => s
       else s) := by
  unfold antexLine
  rw [split_header hb hl]
  rfl

theorem words_blanks (n : Nat) : words (List.replicate n ' ') = [] := by
  induction n with
  | zero => rfl
  | succ n ih => rw [List.replicate_succ, words_ws (by decide), ih]

theorem words_skip (n : Nat) (t : Str) : words (List.replicate n ' ' ++ t) = words t := by
  induction n with
  | zero => rfl
  | succ n ih => rw [List.replicate_succ, List.cons_append, words_ws (by decide), ih]

theorem words_last {w : Str} (hne : w ≠ []) (h : ∀ c ∈ w, isWs c = false) (n : Nat) : words (w ++ List.replicate n ' ') = [w] := by
  cases n with
  | zero => rw [List.replicate_zero, List.append_nil, words_single hne h]
  | succ n => rw [List.replicate_succ, words_cons hne h (by decide), words_blanks]

/-! ### Frequencies -/

def rounded (p : Pco) : Pco :=
  ⟨(parseFloat (Sp3.fmtF64 2 p.n)).getD .nan, (parseFloat (Sp3.fmtF64 2 p.e)).getD .nan, (parseFloat (Sp3.fmtF64 2 p.u)).getD .nan⟩

theorem rounded_close (p : Pco) : Close p (rounded p) := by
  have e2 : (1 : ℚ) / 2 / 10 ^ 2 = 1 / 200 := by norm_num
  obtain ⟨n, h1, c1⟩ := fmt_back 2 p.n
  obtain ⟨e, h2, c2⟩ := fmt_back 2 p.e
  obtain ⟨u, h3, c3⟩ := fmt_back 2 p.u
  rw [e2] at c1 c2 c3
  unfold rounded
  rw [h1, h2, h3]
  exact ⟨c1, c2, c3⟩

theorem freq_body {s : Str} (h : FreqOk s) : blen ("   ".toList ++ padRight 3 s) ≤ 60 := by
  rw [blen_append]
  unfold padRight
  rw [blen_append, blen_ascii (blank_ascii _), List.length_replicate]
  have h3 : blen "   ".toList = 3 := by decide
  have := h.fits
  omega

theorem freq_words {s : Str} (h : FreqOk s) (n : Nat) : words ("   ".toList ++ padRight 3 s ++ List.replicate n ' ') = [s] := by
  have e : "   ".toList ++ padRight 3 s ++ List.replicate n ' ' = List.replicate 3 ' ' ++ (s ++ List.replicate (3 - s.length + n) ' ') := by
    unfold padRight
    rw [← List.replicate_append_replicate]
    simp only [List.append_assoc]
    rfl
  rw [e, words_skip, words_last h.some h.word]

theorem pco_words {a b c : F64} (hb : (Sp3.fmtF64 2 b).length ≤ 9) (hc : (Sp3.fmtF64 2 c).length ≤ 9) (n : Nat) :
    words (padLeft ' ' 10 (Sp3.fmtF64 2 a) ++ (padLeft ' ' 10 (Sp3.fmtF64 2 b) ++ padLeft ' ' 10 (Sp3.fmtF64 2 c)) ++ List.replicate n ' ') =
      [Sp3.fmtF64 2 a, Sp3.fmtF64 2 b, Sp3.fmtF64 2 c] := by
  have ne := fun v => Sp3.Props.fmtF64_ne 2 v
  have nw := fun v => fun c hc => (Sp3.Props.fmtF64_chars 2 v c hc).2
  unfold padLeft
  obtain ⟨kb, hkb⟩ : ∃ k, 10 - (Sp3.fmtF64 2 b).length = k + 1 := ⟨9 - (Sp3.fmtF64 2 b).length, by omega⟩
  obtain ⟨kc, hkc⟩ : ∃ k, 10 - (Sp3.fmtF64 2 c).length = k + 1 := ⟨9 - (Sp3.fmtF64 2 c).length, by omega⟩
  rw [hkb, hkc]
  simp only [List.append_assoc]
  rw [words_skip, List.replicate_succ, List.cons_append, words_cons (ne _) (nw _) (by decide), words_skip, List.replicate_succ, List.cons_append,
    words_cons (ne _) (nw _) (by decide), words_skip, words_last (ne _) (nw _)]

theorem pco_blen {p : Pco} (h : PcoOk p) :
    blen (padLeft ' ' 10 (Sp3.fmtF64 2 p.n) ++ (padLeft ' ' 10 (Sp3.fmtF64 2 p.e) ++ padLeft ' ' 10 (Sp3.fmtF64 2 p.u))) ≤ 60 := by
  have as : ∀ v, isAscii (padLeft ' ' 10 (Sp3.fmtF64 2 v)) := fun v => padLeft_ascii (fun c hc => (Sp3.Props.fmtF64_chars 2 v c hc).1) _ (by decide) _
  simp only [blen_append, blen_ascii (as _), padLeft_length]
  have := h.n
  have := h.e
  have := h.u
  omega

theorem freq_written {p : Str × Pco} (hf : FreqOk p.1) (hp : PcoOk p.2) :
    freqLines p = [padRight 60 ("   ".toList ++ padRight 3 p.1) ++ "START OF FREQUENCY".toList,
      padRight 60 (padLeft ' ' 10 (Sp3.fmtF64 2 p.2.n) ++ (padLeft ' ' 10 (Sp3.fmtF64 2 p.2.e) ++ padLeft ' ' 10 (Sp3.fmtF64 2 p.2.u))) ++ "NORTH / EAST / UP".toList,
      padRight 60 ("   ".toList ++ padRight 3 p.1) ++ "END OF FREQUENCY".toList].map some := by
  unfold freqLines
  rw [header_fits (freq_body hf), header_fits (pco_blen hp), header_fits (freq_body hf)]
  rfl

theorem freq_read {p : Str × Pco} (hf : FreqOk p.1) (hp : PcoOk p.2) (s : ASt) :
    [padRight 60 ("   ".toList ++ padRight 3 p.1) ++ "START OF FREQUENCY".toList,
      padRight 60 (padLeft ' ' 10 (Sp3.fmtF64 2 p.2.n) ++ (padLeft ' ' 10 (Sp3.fmtF64 2 p.2.e) ++ padLeft ' ' 10 (Sp3.fmtF64 2 p.2.u))) ++ "NORTH / EAST / UP".toList,
      padRight 60 ("   ".toList ++ padRight 3 p.1) ++ "END OF FREQUENCY".toList].foldl antexLine s =
    { s with pcos := put s.pcos p.1 (rounded p.2), freq := none } := by
  simp only [List.foldl_cons, List.foldl_nil]
  rw [antex_line (freq_body hf) ⟨by decide, by decide⟩ s]
  rw [antex_line (pco_blen hp) ⟨by decide, by decide⟩, antex_line (freq_body hf) ⟨by decide, by decide⟩]
  obtain ⟨n, h1, _⟩ := fmt_back 2 p.2.n
  obtain ⟨e, h2, _⟩ := fmt_back 2 p.2.e
  obtain ⟨u, h3, _⟩ := fmt_back 2 p.2.u
  simp only [freq_words hf, pco_words hp.e hp.u, String.toList_inj, String.reduceEq, ↓reduceIte, List.head?_cons, List.filterMap_cons, h1, h2, h3, List.filterMap_nil]
  simp only [rounded, h1, h2, h3, Option.getD_some]

/-! ### Sorting -/

theorem sorted_perm {α : Type} (m : Entries α) : (sorted m).Perm m := List.mergeSort_perm _ _

theorem sorted_order {α : Type} (m : Entries α) : (sorted m).Pairwise (fun a b => a.1 ≤ b.1) := by
  have := List.pairwise_mergeSort (le := fun a b : Str × α => decide (a.1 ≤ b.1))
    (fun a b c h1 h2 => by simp only [decide_eq_true_eq] at *; exact List.le_trans h1 h2)
    (fun a b => by simp only [Bool.or_eq_true, decide_eq_true_eq]; exact List.le_total a.1 b.1) m
  exact this.imp (fun h => by simpa using h)

theorem map_key {α : Type} {m : Entries α} (h : IsMap m) {p q : Str × α} (hp : p ∈ m) (hq : q ∈ m) (he : p.1 = q.1) : p = q := by
  unfold IsMap at h
  induction m with
  | nil => simp at hp
  | cons x m ih =>
    rw [List.map_cons, List.nodup_cons] at h
    rcases List.mem_cons.mp hp with h1 | h1 <;> rcases List.mem_cons.mp hq with h2 | h2
    · rw [h1, h2]
    · exact absurd (List.mem_map.mpr ⟨q, h2, by rw [← he, h1]⟩) h.1
    · exact absurd (List.mem_map.mpr ⟨p, h1, by rw [he, h2]⟩) h.1
    · exact ih h.2 h1 h2

/-- The file does not depend on the order in which the map is stored. -/
theorem sorted_canonical {α : Type} {m m' : Entries α} (h : IsMap m) (hp : m.Perm m') : sorted m = sorted m' := by
  have hperm : (sorted m).Perm (sorted m') := (sorted_perm m).trans (hp.trans (sorted_perm m').symm)
  refine List.Perm.eq_of_pairwise (le := fun a b => a.1 ≤ b.1) ?_ (sorted_order m) (sorted_order m') hperm
  intro a b ha hb h1 h2
  exact map_key h ((sorted_perm m).mem_iff.mp ha) ((hperm.trans ((sorted_perm m').trans hp.symm)).mem_iff.mp (hperm.symm.mem_iff.mp hb)) (List.le_antisymm h1 h2)

theorem value_mem {α : Type} {m : Entries α} (h : IsMap m) {k : Str} {v : α} : value m k = some v ↔ (k, v) ∈ m := by
  unfold value
  constructor
  · intro hv
    rcases hf : m.find? (fun p => decide (p.1 = k)) with _ | p
    · rw [hf] at hv; simp at hv
    · rw [hf] at hv
      have hm := List.mem_of_find?_eq_some hf
      have hk := List.find?_some hf
      simp only [decide_eq_true_eq] at hk
      simp only [Option.map_some, Option.some.injEq] at hv
      rw [← hk, ← hv]
      exact hm
  · intro hm
    rcases hf : m.find? (fun p => decide (p.1 = k)) with _ | p
    · rw [List.find?_eq_none] at hf
      exact absurd (decide_eq_true rfl) (hf _ hm)
    · have hm' := List.mem_of_find?_eq_some hf
      have hk := List.find?_some hf
      simp only [decide_eq_true_eq] at hk
      rw [hf, map_key h hm' hm hk]
      rfl

theorem value_none {α : Type} {m : Entries α} {k : Str} : value m k = none ↔ ∀ p ∈ m, p.1 ≠ k := by
  unfold value
  simp

/-- Putting the entries of a map one after the other. -/
theorem puts_value {α β : Type} (f : α → β) {l : Entries α} (hl : IsMap l) (m : Str → Option β) (k : Str) :
    (l.foldl (fun m p => put m p.1 (f p.2)) m) k = (match value l k with | some v => some (f v) | none => m k) := by
  induction l generalizing m with
  | nil => rfl
  | cons p l ih =>
    unfold IsMap at hl
    rw [List.map_cons, List.nodup_cons] at hl
    rw [List.foldl_cons, ih hl.2]
    by_cases hk : p.1 = k
    · have h1 : value l k = none := by
        rw [value_none]
        intro q hq hqk
        exact hl.1 (List.mem_map.mpr ⟨q, hq, by rw [hqk, hk]⟩)
      have h2 : value (p :: l) k = some p.2 := by
        unfold value
        rw [List.find?_cons, decide_eq_true hk]
        rfl
      rw [h1, h2]
      unfold put
      simp only
      rw [if_pos hk.symm]
    · have h2 : value (p :: l) k = value l k := by
        unfold value
        rw [List.find?_cons, decide_eq_false hk]
      rw [h2]
      unfold put
      cases value l k with
      | some v => rfl
      | none => simp only; rw [if_neg (fun h => hk h.symm)]

/-! ### Antennas -/

theorem collect_map (ls : List Str) : collect (ls.map some) = some ls := by
  induction ls with
  | nil => rfl
  | cons l ls ih => rw [List.map_cons, collect, ih]; rfl

theorem collect_append {a : List (Option Str)} {b : List (Option Str)} {x y : List Str} (ha : collect a = some x) (hb : collect b = some y) :
    collect (a ++ b) = some (x ++ y) := by
  induction a generalizing x with
  | nil => simp only [collect, Option.some.injEq] at ha; subst ha; exact hb
  | cons l a ih =>
    cases l with
    | none => simp [collect] at ha
    | some l =>
      rw [List.cons_append, collect]
      rw [collect] at ha
      rcases hc : collect a with _ | x'
      · rw [hc] at ha; simp at ha
      · rw [hc] at ha
        simp only [Option.map_some, Option.some.injEq] at ha
        subst ha
        rw [ih hc]
        rfl

/-- A line that survives the line reader. -/
theorem header_ok {body : Str} {label : String} (hb : '\n' ∉ body) (hl : '\n' ∉ label.toList ∧ label.toList ≠ [] ∧ label.toList.getLast? ≠ some '\r') :
    LineOk (padRight 60 body ++ label.toList) := by
  constructor
  · intro h
    unfold padRight at h
    rcases List.mem_append.mp h with h | h
    · rcases List.mem_append.mp h with h | h
      · exact hb h
      · exact absurd (List.eq_of_mem_replicate h) (by decide)
    · exact hl.1 h
  · rw [List.getLast?_append_of_ne_nil _ hl.2.1]
    exact hl.2.2

theorem freq_lf {s : Str} (h : FreqOk s) : '\n' ∉ "   ".toList ++ padRight 3 s := by
  intro hm
  unfold padRight at hm
  rcases List.mem_append.mp hm with hm | hm
  · exact absurd hm (by decide)
  · rcases List.mem_append.mp hm with hm | hm
    · exact absurd (h.word _ hm) (by decide)
    · exact absurd (List.eq_of_mem_replicate hm) (by decide)

theorem pco_lf (a b c : F64) : '\n' ∉ padLeft ' ' 10 (Sp3.fmtF64 2 a) ++ (padLeft ' ' 10 (Sp3.fmtF64 2 b) ++ padLeft ' ' 10 (Sp3.fmtF64 2 c)) := by
  have h : ∀ v, '\n' ∉ padLeft ' ' 10 (Sp3.fmtF64 2 v) := by
    intro v hm
    unfold padLeft at hm
    rcases List.mem_append.mp hm with hm | hm
    · exact absurd (List.eq_of_mem_replicate hm) (by decide)
    · exact absurd (Sp3.Props.fmtF64_chars 2 v _ hm).2 (by decide)
  intro hm
  rcases List.mem_append.mp hm with hm | hm
  · exact h _ hm
  · rcases List.mem_append.mp hm with hm | hm
    · exact h _ hm
    · exact h _ hm

/-- The frequencies of an antenna. -/
theorem freqs_block {ps : Entries Pco} (hf : ∀ p ∈ ps, FreqOk p.1) (hp : ∀ p ∈ ps, PcoOk p.2) :
    ∃ ls, collect (ps.flatMap freqLines) = some ls ∧ (∀ l ∈ ls, LineOk l) ∧
      ∀ s : ASt, s.freq = none → ls.foldl antexLine s = { s with pcos := ps.foldl (fun m p => put m p.1 (rounded p.2)) s.pcos } := by
  induction ps with
  | nil => exact ⟨[], rfl, by simp, fun s _ => rfl⟩
  | cons p ps ih =>
    obtain ⟨ls, h1, h2, h3⟩ := ih (fun q hq => hf q (by simp [hq])) (fun q hq => hp q (by simp [hq]))
    have f1 := hf p (by simp)
    have f2 := hp p (by simp)
    refine ⟨_, by rw [List.flatMap_cons, freq_written f1 f2]; exact collect_append (collect_map _) h1, ?_, ?_⟩
    · intro l hl
      rcases List.mem_append.mp hl with hl | hl
      · simp only [List.mem_cons, List.not_mem_nil, or_false] at hl
        rcases hl with rfl | rfl | rfl
        · exact header_ok (freq_lf f1) (by decide)
        · exact header_ok (pco_lf _ _ _) (by decide)
        · exact header_ok (freq_lf f1) (by decide)
      · exact h2 l hl
    · intro s hs
      rw [List.foldl_append, freq_read f1 f2, h3 _ rfl, List.foldl_cons]
      rw [← hs]

theorem antenna_block {a : Str × Entries Pco} (hn : NameOk a.1) (hm : IsMap a.2) (hf : ∀ p ∈ a.2, FreqOk p.1) (hp : ∀ p ∈ a.2, PcoOk p.2) :
    ∃ ls, collect (antennaLines a) = some ls ∧ (∀ l ∈ ls, LineOk l) ∧
      ∀ s : ASt, ls.foldl antexLine s = ⟨put s.cat a.1 ((sorted a.2).foldl (fun m p => put m p.1 (rounded p.2)) (fun _ => none)), none, fun _ => none, none⟩ := by
  have hs : ∀ p, p ∈ sorted a.2 → p ∈ a.2 := fun p h => (sorted_perm a.2).mem_iff.mp h
  obtain ⟨ls, h1, h2, h3⟩ := freqs_block (ps := sorted a.2) (fun p h => hf p (hs p h)) (fun p h => hp p (hs p h))
  have h0 : blen ([] : Str) ≤ 60 := by decide
  have hL : collect (antennaLines a) = some ([padRight 60 [] ++ "START OF ANTENNA".toList, padRight 60 a.1 ++ "TYPE / SERIAL NO".toList] ++
      (ls ++ [padRight 60 [] ++ "END OF ANTENNA".toList])) := by
    unfold antennaLines
    rw [header_fits h0, header_fits h0, header_fits hn.fits]
    exact collect_append (collect_map [_, _]) (collect_append h1 (collect_map [_]))
  refine ⟨_, hL, ?_, ?_⟩
  · intro l hl
    simp only [List.mem_append, List.mem_cons, List.not_mem_nil, or_false] at hl
    rcases hl with (rfl | rfl) | hl | rfl
    · exact header_ok (by decide) (by decide)
    · exact header_ok hn.line (by decide)
    · exact h2 l hl
    · exact header_ok (by decide) (by decide)
  · intro s
    rw [List.foldl_append, List.foldl_append]
    simp only [List.foldl_cons, List.foldl_nil]
    rw [antex_line h0 ⟨by decide, by decide⟩, antex_line hn.fits ⟨by decide, by decide⟩, antex_line h0 ⟨by decide, by decide⟩]
    have ht : trim (a.1 ++ List.replicate (60 - blen a.1) ' ') = a.1 := by
      have := trim_padRight hn.tight (a.1.length + (60 - blen a.1))
      unfold padRight at this
      rwa [show a.1.length + (60 - blen a.1) - a.1.length = 60 - blen a.1 by omega] at this
    simp only [String.toList_inj, String.reduceEq, ↓reduceIte, ht]
    rw [h3 _ rfl]

theorem antennas_block {cat : Entries (Entries Pco)} (hn : ∀ a ∈ cat, NameOk a.1) (hm : ∀ a ∈ cat, IsMap a.2) (hf : ∀ a ∈ cat, ∀ p ∈ a.2, FreqOk p.1)
    (hp : ∀ a ∈ cat, ∀ p ∈ a.2, PcoOk p.2) :
    ∃ ls, collect (cat.flatMap antennaLines) = some ls ∧ (∀ l ∈ ls, LineOk l) ∧
      ∀ s : ASt, (ls.foldl antexLine s).cat =
        cat.foldl (fun m a => put m a.1 ((fun ps : Entries Pco => (sorted ps).foldl (fun m p => put m p.1 (rounded p.2)) (fun _ => none)) a.2)) s.cat := by
  induction cat with
  | nil => exact ⟨[], rfl, by simp, fun s => rfl⟩
  | cons a cat ih =>
    obtain ⟨ls, h1, h2, h3⟩ := ih (fun b hb => hn b (by simp [hb])) (fun b hb => hm b (by simp [hb])) (fun b hb => hf b (by simp [hb])) (fun b hb => hp b (by simp [hb]))
    obtain ⟨ms, k1, k2, k3⟩ := antenna_block (hn a (by simp)) (hm a (by simp)) (hf a (by simp)) (hp a (by simp))
    refine ⟨ms ++ ls, by rw [List.flatMap_cons]; exact collect_append k1 h1, ?_, ?_⟩
    · intro l hl
      rcases List.mem_append.mp hl with hl | hl
      · exact k2 l hl
      · exact h2 l hl
    · intro s
      rw [List.foldl_append, h3, k3, List.foldl_cons]

theorem isMap_sorted {α : Type} {m : Entries α} (h : IsMap m) : IsMap (sorted m) :=
  ((sorted_perm m).map Prod.fst).nodup_iff.mpr h

theorem value_sorted {α : Type} {m : Entries α} (h : IsMap m) (k : Str) : value (sorted m) k = value m k := by
  rcases hv : value m k with _ | v
  · rw [value_none] at hv ⊢
    exact fun p hp => hv p ((sorted_perm m).mem_iff.mp hp)
  · rw [value_mem h] at hv
    rw [value_mem (isMap_sorted h)]
    exact (sorted_perm m).mem_iff.mpr hv

/-- Writing a catalogue and reading the file gives back the same antennas, each with the same frequencies, and the offsets to
half a hundredth of a millimetre. -/
theorem antex_round_trip {cat : Entries (Entries Pco)} (h : CatOk cat) :
    ∃ text, writeAntex cat = some text ∧ ∀ name,
      (value cat name = none → readAntex text name = none) ∧
      (∀ ps, value cat name = some ps → ∃ qs, readAntex text name = some qs ∧ ∀ freq,
        (value ps freq = none → qs freq = none) ∧ (∀ p, value ps freq = some p → ∃ q, qs freq = some q ∧ Close p q)) := by
  have hs : ∀ a, a ∈ sorted cat → a ∈ cat := fun p h => (sorted_perm cat).mem_iff.mp h
  obtain ⟨ls, h1, h2, h3⟩ := antennas_block (cat := sorted cat) (fun a ha => h.names a (hs a ha)) (fun a ha => h.maps a (hs a ha))
    (fun a ha => h.freqs a (hs a ha)) (fun a ha => h.pcos a (hs a ha))
  have hb1 : blen "     1.4            G                  ".toList ≤ 60 := by decide
  have hb2 : blen "ANTEX                                                       ".toList ≤ 60 := by decide
  have h0 : blen ([] : Str) ≤ 60 := by decide
  have hW : writeAntex cat = some (unlines ([padRight 60 "     1.4            G                  ".toList ++ "ANTEX VERSION / SYST".toList,
      padRight 60 "ANTEX                                                       ".toList ++ "PCV TYPE / REFANT".toList,
      padRight 60 [] ++ "END OF HEADER".toList] ++ ls)) := by
    unfold writeAntex
    rw [header_fits hb1, header_fits hb2, header_fits h0]
    have hc := collect_append (collect_map [padRight 60 "     1.4            G                  ".toList ++ "ANTEX VERSION / SYST".toList,
      padRight 60 "ANTEX                                                       ".toList ++ "PCV TYPE / REFANT".toList,
      padRight 60 [] ++ "END OF HEADER".toList]) h1
    simp only [List.map_cons, List.map_nil] at hc
    rw [hc]
    rfl
  refine ⟨_, hW, ?_⟩
  have hR : readAntex (unlines ([padRight 60 "     1.4            G                  ".toList ++ "ANTEX VERSION / SYST".toList,
      padRight 60 "ANTEX                                                       ".toList ++ "PCV TYPE / REFANT".toList,
      padRight 60 [] ++ "END OF HEADER".toList] ++ ls)) =
      (sorted cat).foldl (fun m a => put m a.1 ((fun ps : Entries Pco => (sorted ps).foldl (fun m p => put m p.1 (rounded p.2)) (fun _ => none)) a.2)) (fun _ => none) := by
    unfold readAntex
    rw [lines_unlines, List.foldl_append, h3]
    · congr 1
    · intro l hl
      rcases List.mem_append.mp hl with hl | hl
      · simp only [List.mem_cons, List.not_mem_nil, or_false] at hl
        rcases hl with rfl | rfl | rfl
        · exact header_ok (by decide) (by decide)
        · exact header_ok (by decide) (by decide)
        · exact header_ok (by decide) (by decide)
      · exact h2 l hl
  intro name
  rw [hR, puts_value (fun ps : Entries Pco => (sorted ps).foldl (fun m p => put m p.1 (rounded p.2)) (fun _ => none)) (isMap_sorted h.map),
    value_sorted h.map]
  constructor
  · intro hv; rw [hv]
  · intro ps hv
    rw [hv]
    have hmem := (value_mem h.map).mp hv
    have hmp : IsMap ps := h.maps _ hmem
    refine ⟨_, rfl, fun freq => ?_⟩
    rw [puts_value _ (isMap_sorted hmp), value_sorted hmp]
    constructor
    · intro hq; rw [hq]
    · intro p hq
      rw [hq]
      exact ⟨_, rfl, rounded_close p⟩

/-- The file is a function of the catalogue, not of the order in which the maps hold it. -/
theorem antex_canonical {cat cat' : Entries (Entries Pco)} (h : IsMap cat) (hp : cat.Perm cat') : writeAntex cat = writeAntex cat' := by
  unfold writeAntex
  rw [sorted_canonical h hp]

/-- The same for the frequencies of an antenna. -/
theorem antenna_canonical {name : Str} {ps ps' : Entries Pco} (h : IsMap ps) (hp : ps.Perm ps') : antennaLines (name, ps) = antennaLines (name, ps') := by
  unfold antennaLines
  rw [sorted_canonical h hp]

/-- The antennas are written in the order of their names. -/
theorem antex_sorted (cat : Entries (Entries Pco)) : ((sorted cat).map Prod.fst).Pairwise (· ≤ ·) ∧ (sorted cat).Perm cat :=
  ⟨List.pairwise_map.mpr (sorted_order cat), sorted_perm cat⟩

/-! ### A concrete catalogue -/

def sampleCat : Entries (Entries Pco) :=
  [("TRM 59800.00 NONE".toList, [("G02".toList, ⟨.num (1 / 3), .num (-50), .num 90⟩), ("G01".toList, ⟨.num 1, .num 0, .num (8995 / 100)⟩)]), ("ANT é".toList, [])]

theorem sampleCat_ok : CatOk sampleCat := by
  constructor
  · unfold IsMap sampleCat; decide
  · intro a ha
    simp only [sampleCat, List.mem_cons, List.not_mem_nil, or_false] at ha
    rcases ha with rfl | rfl <;> exact ⟨⟨by decide, by decide⟩, by decide, by decide⟩
  · intro a ha
    simp only [sampleCat, List.mem_cons, List.not_mem_nil, or_false] at ha
    rcases ha with rfl | rfl <;> (unfold IsMap; decide)
  · intro a ha p hp
    simp only [sampleCat, List.mem_cons, List.not_mem_nil, or_false] at ha
    rcases ha with rfl | rfl
    · simp only [List.mem_cons, List.not_mem_nil, or_false] at hp
      rcases hp with rfl | rfl <;> exact ⟨by decide, by decide, by decide⟩
    · simp at hp
  · intro a ha p hp
    simp only [sampleCat, List.mem_cons, List.not_mem_nil, or_false] at ha
    rcases ha with rfl | rfl
    · simp only [List.mem_cons, List.not_mem_nil, or_false] at hp
      rcases hp with rfl | rfl <;> exact ⟨by decide +kernel, by decide +kernel, by decide +kernel⟩
    · simp at hp

example : ∃ text, writeAntex sampleCat = some text ∧ ∃ qs, readAntex text "TRM 59800.00 NONE".toList = some qs ∧
    ∃ q, qs "G02".toList = some q ∧ Close ⟨.num (1 / 3), .num (-50), .num 90⟩ q := by
  obtain ⟨text, h1, h2⟩ := antex_round_trip sampleCat_ok
  obtain ⟨_, h3⟩ := h2 "TRM 59800.00 NONE".toList
  obtain ⟨qs, h4, h5⟩ := h3 [("G02".toList, ⟨.num (1 / 3), .num (-50), .num 90⟩), ("G01".toList, ⟨.num 1, .num 0, .num (8995 / 100)⟩)] (by decide +kernel)
  obtain ⟨_, h6⟩ := h5 "G02".toList
  obtain ⟨q, h7, h8⟩ := h6 ⟨.num (1 / 3), .num (-50), .num 90⟩ (by decide +kernel)
  exact ⟨text, h1, qs, h4, q, h7, h8⟩

end Verif.Igs.Props
