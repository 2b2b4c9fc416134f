import Verif.CStar.Model
import Mathlib.Tactic.Linarith
import Mathlib.Tactic.NormNum
import Mathlib.Data.List.Forall2
import Mathlib.Algebra.Order.Ring.Rat

namespace Verif.CStar.Props
open Verif.CStar Verif.Ffi

/-! ## C232: the stars -/

/-- A star as documented (src/bodies/catalog.rs, the comment before each constant). -/
structure Doc where
  name : String
  distance : ℚ
  mass : ℚ
  radius : ℚ
  luminosity : ℚ
  ra : ℚ
  dec : ℚ

def documented : List Doc := [
  ⟨"Vega", 25.0, 2.135, 2.59, 40.0, 279.2347, 38.7837⟩,
  ⟨"Sirius", 8.6, 2.063, 1.713, 24.7, 101.28716, -16.71612⟩,
  ⟨"Polaris", 433.0, 6.5, 46.0, 2500.0, 37.95456, 89.26411⟩,
  ⟨"Canopus", 310.0, 8.0, 71.0, 13600.0, 95.98788, -52.69566⟩,
  ⟨"Arcturus", 36.7, 1.1, 26.0, 170.0, 213.9153, 19.1825⟩,
  ⟨"Rigel", 860.0, 17.0, 78.9, 120000.0, 78.63447, -8.20164⟩,
  ⟨"Betelgeuse", 548.0, 11.6, 724.0, 14000.0, 88.79294, 7.40706⟩,
  ⟨"Procyon", 11.5, 1.499, 2.048, 6.93, 114.82549, 5.22499⟩,
  ⟨"Aldebaran", 65.1, 1.16, 45.1, 439.0, 68.98016, 16.50930⟩,
  ⟨"Altair", 16.7, 1.86, 1.79, 10.6, 297.69583, 8.86832⟩]

/-- A star is as documented: the numbers are the same, the luminosity and the coordinates up to the rounding of the comments. -/
structure Agrees (d : Doc) (s : Star) : Prop where
  name : s.name = d.name.toList
  distance : s.distance = .fin d.distance
  mass : s.mass = .fin d.mass
  radius : s.radius = .fin d.radius
  luminosity : ∃ l, s.luminosity = .fin l ∧ |l - d.luminosity| ≤ 1 / 2
  place : ∃ dec ra, s.place = ⟨.fin dec, .fin ra, .fin d.distance⟩ ∧ |dec - d.dec| ≤ 1 / 200000 ∧ |ra - d.ra| ≤ 1 / 200000
  epoch : s.epoch = 2451545
  fixed : s.motion = none

/-- The same letter up to case: also the dotless i for I and the long s for S. -/
def Same (c t : Char) : Prop :=
  c = t ∨ c.toNat = t.toNat + 32 ∨ (t = 'I' ∧ c = 'ı') ∨ (t = 'S' ∧ c = 'ſ')

/-- What Unicode says of the other characters: their upper case has a letter beyond ASCII, or is one of the ligatures spelt out. -/
def Unicode (rest : Char → List Char) : Prop :=
  ∀ c : Char, 128 ≤ c.toNat → c ≠ 'ı' → c ≠ 'ſ' →
    (∃ d ∈ rest c, 128 ≤ d.toNat) ∨ rest c ∈ [['S', 'S'], ['F', 'F'], ['F', 'I'], ['F', 'L'], ['F', 'F', 'I'], ['F', 'F', 'L'], ['S', 'T']]

/-- A word of capital letters in which no ligature can be spelt. -/
def plain : List Char → Bool
  | [] => true
  | [c] => decide (65 ≤ c.toNat ∧ c.toNat ≤ 90)
  | c :: d :: r => decide (65 ≤ c.toNat ∧ c.toNat ≤ 90) &&
      !((c == 'S' && (d == 'S' || d == 'T')) || (c == 'F' && (d == 'F' || d == 'I' || d == 'L'))) && plain (d :: r)

theorem plain_tail {c : Char} {r : List Char} (h : plain (c :: r) = true) : plain r = true := by
  cases r with
  | nil => rfl
  | cons d r => simp only [plain, Bool.and_eq_true] at h; exact h.2

theorem plain_head {c : Char} {r : List Char} (h : plain (c :: r) = true) : 65 ≤ c.toNat ∧ c.toNat ≤ 90 := by
  cases r with
  | nil => simpa [plain] using h
  | cons d r => simp only [plain, Bool.and_eq_true, decide_eq_true_eq] at h; exact h.1.1

theorem plain_mem : ∀ {t : List Char}, plain t = true → ∀ c ∈ t, c.toNat < 128
  | [], _, c, hc => by cases hc
  | d :: r, h, c, hc => by
    rcases List.mem_cons.1 hc with rfl | hc
    · have := plain_head h; omega
    · exact plain_mem (plain_tail h) c hc

theorem upper_same (rest : Char → List Char) {c t : Char} (ht : 65 ≤ t.toNat ∧ t.toNat ≤ 90) (h : Same c t) :
    upper rest c = [t] := by
  rcases h with rfl | h | ⟨rfl, rfl⟩ | ⟨rfl, rfl⟩
  · unfold upper
    rw [if_pos (by omega), if_neg (by omega)]
  · unfold upper
    rw [if_pos (by omega), if_pos (by omega)]
    congr 1
    rw [show c.toNat - 32 = t.toNat by omega]
    exact Char.ofNat_toNat t
  · rfl
  · rfl

theorem toNat_ofNat_small {n : Nat} (h : n < 128) : (Char.ofNat n).toNat = n := by
  have : n.isValidChar := Or.inl (by omega)
  simp [Char.ofNat, this, Char.toNat, Char.ofNatAux]

/-- Upper case gives a plain word exactly when the letters are the same up to case. -/
theorem upper_word {rest : Char → List Char} (hu : Unicode rest) :
    ∀ (cs t : List Char), plain t = true → (cs.flatMap (upper rest) = t ↔ List.Forall₂ Same cs t)
  | [], t, _ => by
    rw [List.flatMap_nil, List.forall₂_nil_left_iff]; exact eq_comm
  | c :: cs, t, ht => by
    rw [List.flatMap_cons]
    constructor
    · intro h
      by_cases hc : c.toNat < 128
      · have e : upper rest c = [if 97 ≤ c.toNat ∧ c.toNat ≤ 122 then Char.ofNat (c.toNat - 32) else c] := if_pos hc
        rw [e, List.singleton_append] at h
        subst h
        refine .cons ?_ ((upper_word hu cs _ (plain_tail ht)).1 rfl)
        split
        · rename_i hl
          exact Or.inr (Or.inl (by rw [toNat_ofNat_small (by omega)]; omega))
        · exact Or.inl rfl
      · by_cases hi : c = 'ı'
        · subst hi
          rw [show upper rest 'ı' = ['I'] from rfl, List.singleton_append] at h
          subst h
          exact .cons (Or.inr (Or.inr (Or.inl ⟨rfl, rfl⟩))) ((upper_word hu cs _ (plain_tail ht)).1 rfl)
        by_cases hs : c = 'ſ'
        · subst hs
          rw [show upper rest 'ſ' = ['S'] from rfl, List.singleton_append] at h
          subst h
          exact .cons (Or.inr (Or.inr (Or.inr ⟨rfl, rfl⟩))) ((upper_word hu cs _ (plain_tail ht)).1 rfl)
        exfalso
        have e : upper rest c = rest c := by
          unfold upper; rw [if_neg hc, if_neg hi, if_neg hs]
        rw [e] at h
        subst h
        rcases hu c (by omega) hi hs with ⟨d, hd, hd'⟩ | hl
        · have := plain_mem ht d (List.mem_append_left _ hd)
          omega
        · simp only [List.mem_cons, List.not_mem_nil, or_false] at hl
          rcases hl with hl | hl | hl | hl | hl | hl | hl <;> rw [hl] at ht <;> simp [plain] at ht
    · intro h
      cases h with
      | cons h1 h2 =>
        rw [upper_same rest (plain_head ht) h1, (upper_word hu cs _ (plain_tail ht)).2 h2]; rfl

/-- The names in capital letters, with their stars. -/
def table : List (List Char × Star) :=
  [("VEGA".toList, vega), ("SIRIUS".toList, sirius), ("POLARIS".toList, polaris), ("CANOPUS".toList, canopus),
   ("ARCTURUS".toList, arcturus), ("RIGEL".toList, rigel), ("BETELGEUSE".toList, betelgeuse), ("PROCYON".toList, procyon),
   ("ALDEBARAN".toList, aldebaran), ("ALTAIR".toList, altair)]

theorem pick_iff (cs : List Char) (s : Star) : pick cs = some s ↔ (cs, s) ∈ table := by
  constructor
  · intro h
    unfold pick at h
    split at h <;> first | (injection h with h; subst h; decide +kernel) | cases h
  · intro h
    simp only [table, List.mem_cons, Prod.mk.injEq, List.not_mem_nil, or_false] at h
    rcases h with ⟨rfl, rfl⟩ | ⟨rfl, rfl⟩ | ⟨rfl, rfl⟩ | ⟨rfl, rfl⟩ | ⟨rfl, rfl⟩ | ⟨rfl, rfl⟩ | ⟨rfl, rfl⟩ | ⟨rfl, rfl⟩ |
      ⟨rfl, rfl⟩ | ⟨rfl, rfl⟩ <;> rfl

theorem table_plain : ∀ r ∈ table, plain r.1 = true := by decide +kernel

/-- A letter of a name, in either case, as the capital `t`. -/
def Cased (m t : Char) : Prop := m = t ∨ m.toNat = t.toNat + 32

instance (m t : Char) : Decidable (Cased m t) := by unfold Cased; infer_instance

/-- A text spells a name: letter by letter the same up to case. -/
def Spells (cs : List Char) (n : String) : Prop :=
  List.Forall₂ (fun c m => ∃ t : Char, (65 ≤ t.toNat ∧ t.toNat ≤ 90) ∧ Same c t ∧ Cased m t) cs n.toList

theorem char_ext {a b : Char} (h : a.toNat = b.toNat) : a = b := by
  rw [← Char.ofNat_toNat a, h, Char.ofNat_toNat]

theorem spells_capital : ∀ {ms t : List Char}, List.Forall₂ Cased ms t → plain t = true → ∀ (cs : List Char),
    (List.Forall₂ (fun c m => ∃ t : Char, (65 ≤ t.toNat ∧ t.toNat ≤ 90) ∧ Same c t ∧ Cased m t) cs ms ↔
      List.Forall₂ Same cs t) := by
  intro ms t h
  induction h with
  | nil => intro _ cs; rw [List.forall₂_nil_right_iff, List.forall₂_nil_right_iff]
  | @cons m u ms t hm _ ih =>
    intro hp cs
    have hu := plain_head hp
    cases cs with
    | nil => constructor <;> intro h <;> cases h
    | cons c cs =>
      rw [List.forall₂_cons, List.forall₂_cons, ih (plain_tail hp) cs]
      apply and_congr_left'
      constructor
      · rintro ⟨v, hv, hs, hc⟩
        have : v = u := by
          apply char_ext
          rcases hm with rfl | hm <;> rcases hc with rfl | hc <;> omega
        exact this ▸ hs
      · exact fun hs => ⟨u, hu, hs, hm⟩

/-- The constant of a documented star. -/
def constant (d : Doc) : Star :=
  match d.name with
  | "Vega" => vega
  | "Sirius" => sirius
  | "Polaris" => polaris
  | "Canopus" => canopus
  | "Arcturus" => arcturus
  | "Rigel" => rigel
  | "Betelgeuse" => betelgeuse
  | "Procyon" => procyon
  | "Aldebaran" => aldebaran
  | _ => altair

theorem constant_agrees (d : Doc) (h : d ∈ documented) : Agrees d (constant d) := by
  simp only [documented, List.mem_cons, List.not_mem_nil, or_false] at h
  rcases h with rfl | rfl | rfl | rfl | rfl | rfl | rfl | rfl | rfl | rfl <;>
    exact ⟨rfl, rfl, rfl, rfl, ⟨_, rfl, by decide +kernel⟩, ⟨_, _, rfl, by decide +kernel, by decide +kernel⟩, rfl, rfl⟩

theorem rows_documented : ∀ r ∈ table, ∃ d ∈ documented, r.2 = constant d ∧ List.Forall₂ Cased d.name.toList r.1 := by
  intro r h
  simp only [table, List.mem_cons, List.not_mem_nil, or_false] at h
  rcases h with rfl | rfl | rfl | rfl | rfl | rfl | rfl | rfl | rfl | rfl
  · exact ⟨documented[0], List.getElem_mem _, rfl, by decide +kernel⟩
  · exact ⟨documented[1], List.getElem_mem _, rfl, by decide +kernel⟩
  · exact ⟨documented[2], List.getElem_mem _, rfl, by decide +kernel⟩
  · exact ⟨documented[3], List.getElem_mem _, rfl, by decide +kernel⟩
  · exact ⟨documented[4], List.getElem_mem _, rfl, by decide +kernel⟩
  · exact ⟨documented[5], List.getElem_mem _, rfl, by decide +kernel⟩
  · exact ⟨documented[6], List.getElem_mem _, rfl, by decide +kernel⟩
  · exact ⟨documented[7], List.getElem_mem _, rfl, by decide +kernel⟩
  · exact ⟨documented[8], List.getElem_mem _, rfl, by decide +kernel⟩
  · exact ⟨documented[9], List.getElem_mem _, rfl, by decide +kernel⟩

theorem documented_rows : ∀ d ∈ documented, ∃ r ∈ table, r.2 = constant d ∧ List.Forall₂ Cased d.name.toList r.1 := by
  intro r h
  simp only [documented, List.mem_cons, List.not_mem_nil, or_false] at h
  rcases h with rfl | rfl | rfl | rfl | rfl | rfl | rfl | rfl | rfl | rfl
  · exact ⟨table[0], List.getElem_mem _, rfl, by decide +kernel⟩
  · exact ⟨table[1], List.getElem_mem _, rfl, by decide +kernel⟩
  · exact ⟨table[2], List.getElem_mem _, rfl, by decide +kernel⟩
  · exact ⟨table[3], List.getElem_mem _, rfl, by decide +kernel⟩
  · exact ⟨table[4], List.getElem_mem _, rfl, by decide +kernel⟩
  · exact ⟨table[5], List.getElem_mem _, rfl, by decide +kernel⟩
  · exact ⟨table[6], List.getElem_mem _, rfl, by decide +kernel⟩
  · exact ⟨table[7], List.getElem_mem _, rfl, by decide +kernel⟩
  · exact ⟨table[8], List.getElem_mem _, rfl, by decide +kernel⟩
  · exact ⟨table[9], List.getElem_mem _, rfl, by decide +kernel⟩

/-- C232: a text finds a star exactly when it spells one of the documented names, in any mixture of cases. -/
theorem found_iff {rest : Char → List Char} (hu : Unicode rest) (cs : List Char) (s : Star) :
    pick (cs.flatMap (upper rest)) = some s ↔ ∃ d ∈ documented, Spells cs d.name ∧ s = constant d := by
  rw [pick_iff]
  constructor
  · intro h
    obtain ⟨d, hd, hs, hc⟩ := rows_documented _ h
    exact ⟨d, hd, (spells_capital hc (table_plain _ h) cs).2 ((upper_word hu cs _ (table_plain _ h)).1 rfl), hs⟩
  · rintro ⟨d, hd, hs, rfl⟩
    obtain ⟨⟨t, s⟩, ht, rfl, hc⟩ := documented_rows d hd
    have := (upper_word hu cs t (table_plain _ ht)).2 ((spells_capital hc (table_plain _ ht) cs).1 hs)
    rw [this]; exact ht

/-! ## C232: what a client sees -/

/-- What the client has: the stars made so far, with those released struck out. -/
abbrev Ledger := List (Option Star)

/-- The number of a star that a call asks for. -/
def Shows : Field → Star → F64 → Prop
  | .distance, s, x => s.distance = x
  | .mass, s, x => s.mass = x
  | .radius, s, x => s.radius = x
  | .luminosity, s, x => s.luminosity = x

/-- The calls a client may make, and what each must answer. `star` gives the constants, `position` the coordinate made of a
right ascension, a declination and a distance. -/
inductive Step (star : Doc → Star) (position : F64 → F64 → F64 → Option Place) : Ledger → Call → Ledger → Answer → Prop
  | unnamed {m out} : Step star position m (.catalog .null out) m (.made .nullPointer)
  | nowhere {m n} : Step star position m (.catalog n 0) m (.made .nullPointer)
  | garbled {m out} : out ≠ 0 → Step star position m (.catalog .invalid out) m (.made .invalidArgument)
  | found {m cs out d} : out ≠ 0 → d ∈ documented → Spells cs d.name →
      Step star position m (.catalog (.text cs) out) (m ++ [some (star d)]) (.made .ok)
  | unknown {m cs out} : out ≠ 0 → (∀ d ∈ documented, ¬ Spells cs d.name) →
      Step star position m (.catalog (.text cs) out) m (.made .unknownStar)
  | unnamed' {m x out} : Step star position m (.create .null x out) m (.made .nullPointer)
  | nowhere' {m n x} : Step star position m (.create n x 0) m (.made .nullPointer)
  | garbled' {m x out} : out ≠ 0 → Step star position m (.create .invalid x out) m (.made .invalidArgument)
  | custom {m cs x out p e} : out ≠ 0 → position x.ra x.dec x.distance = some p → x.epoch = .fin e →
      Step star position m (.create (.text cs) x out)
        (m ++ [some ⟨cs, x.distance, x.mass, x.radius, x.luminosity, p, e, x.motion⟩]) (.made .ok)
  | undated {m cs x out p} : out ≠ 0 → position x.ra x.dec x.distance = some p → (∀ e, x.epoch ≠ .fin e) →
      Step star position m (.create (.text cs) x out) m (.made .invalidArgument)
  | misplaced {m cs x out} : out ≠ 0 → position x.ra x.dec x.distance = none →
      Step star position m (.create (.text cs) x out) m (.made .internalPanic)
  | freeNull {m} : Step star position m (.free none) m .freed
  | free {m i s} : m[i]? = some (some s) → Step star position m (.free (some i)) (m.set i none) .freed
  | nameNull {m buf l bs o} : Step star position m (.name none buf l bs o) m (.name (.nullPointer, bs, none))
  | nameNowhere {m i l bs o} : i < m.length → Step star position m (.name (some i) 0 l bs o) m (.name (.nullPointer, bs, none))
  | nameShort {m i buf l bs o s} : buf ≠ 0 → m[i]? = some (some s) → l ≤ (bytes s.name).length →
      Step star position m (.name (some i) buf l bs o) m (.name (.invalidArgument, bs, none))
  | name {m i buf l bs bs' o s w} : buf ≠ 0 → m[i]? = some (some s) → (bytes s.name).length < l →
      bs' = bytes s.name ++ [0] ++ bs.drop ((bytes s.name).length + 1) → (w = none ↔ o = 0) →
      (∀ n ∈ w, n = (bytes s.name).length) →
      Step star position m (.name (some i) buf l bs o) m (.name (.ok, bs', w))
  | getNull {m f} : Step star position m (.get f none) m (.number .nan)
  | get {m f i s x} : m[i]? = some (some s) → Shows f s x → Step star position m (.get f (some i)) m (.number x)
  | subjectNull {m} : Step star position m (.subject none) m (.subject (.nullPointer, none))
  | subject {m i s} : m[i]? = some (some s) →
      Step star position m (.subject (some i)) m (.subject (.ok, some (s.place, s.epoch, s.motion)))

inductive Steps (star : Doc → Star) (position : F64 → F64 → F64 → Option Place) :
    Ledger → List Call → Ledger → List Answer → Prop
  | nil (m) : Steps star position m [] m []
  | cons {m m' m'' x xs a as} : Step star position m x m' a → Steps star position m' xs m'' as →
      Steps star position m (x :: xs) m'' (a :: as)

/-- An allocator gives an address that is not null and not in use. -/
def Fresh (A : Alloc) : Prop := ∀ h, A h ≠ 0 ∧ h (A h) = none

structure Holds (s : Heap × List Addr) (m : Ledger) : Prop where
  len : s.2.length = m.length
  live : ∀ (i : Nat) d, m[i]? = some (some d) → ∃ p, s.2[i]? = some p ∧ p ≠ 0 ∧ s.1 p = some d
  apart : ∀ (i j : Nat) p d d', m[i]? = some (some d) → m[j]? = some (some d') → s.2[i]? = some p → s.2[j]? = some p → i = j
  only : ∀ p, s.1 p ≠ none → ∃ (i : Nat) (d : Star), m[i]? = some (some d) ∧ s.2[i]? = some p

theorem holds_push {A : Alloc} (hA : Fresh A) {s : Heap × List Addr} {m : Ledger} (h : Holds s m) (d : Star) :
    Holds (fun a => if a = A s.1 then some d else s.1 a, s.2 ++ [A s.1]) (m ++ [some d]) := by
  obtain ⟨h0, hn⟩ := hA s.1
  have hs := h.len
  have old : ∀ (i : Nat) p e, m[i]? = some (some e) → s.2[i]? = some p → p ≠ A s.1 := by
    rintro i p e hi hp rfl
    obtain ⟨q, hq, -, hq'⟩ := h.live i e hi
    rw [hp] at hq
    cases hq
    rw [hn] at hq'
    cases hq'
  have split : ∀ (i : Nat) e, (m ++ [some d])[i]? = some (some e) →
      (i < m.length ∧ m[i]? = some (some e)) ∨ (i = m.length ∧ e = d) := by
    intro i e hi
    rcases lt_or_ge i m.length with hl | hl
    · rw [List.getElem?_append_left hl] at hi
      exact .inl ⟨hl, hi⟩
    · rw [List.getElem?_append_right hl] at hi
      have : i - m.length = 0 := by
        by_contra hne
        rw [List.getElem?_eq_none (by simp; omega)] at hi
        cases hi
      rw [this] at hi
      exact .inr ⟨by omega, by simpa using hi.symm⟩
  have addrOld : ∀ i : Nat, i < m.length → (s.2 ++ [A s.1])[i]? = s.2[i]? := fun i hi =>
    List.getElem?_append_left (by omega)
  have addrNew : (s.2 ++ [A s.1])[m.length]? = some (A s.1) := by
    rw [List.getElem?_append_right (by omega), hs]
    simp
  refine ⟨by simp [hs], ?_, ?_, ?_⟩
  · intro i e hi
    rcases split i e hi with ⟨hl, hi⟩ | ⟨rfl, rfl⟩
    · obtain ⟨p, hp, hp0, hq⟩ := h.live i e hi
      refine ⟨p, by rw [addrOld i hl]; exact hp, hp0, ?_⟩
      show (if p = A s.1 then _ else _) = _
      rw [if_neg (old i p e hi hp)]
      exact hq
    · exact ⟨A s.1, addrNew, h0, if_pos rfl⟩
  · intro i j p e e' hi hj hp hp'
    rcases split i e hi with ⟨hl, hi₁⟩ | ⟨rfl, rfl⟩ <;> rcases split j e' hj with ⟨hl', hj₁⟩ | ⟨rfl, rfl⟩
    · rw [addrOld i hl] at hp
      rw [addrOld j hl'] at hp'
      exact h.apart i j p e e' hi₁ hj₁ hp hp'
    · rw [addrOld i hl] at hp
      rw [addrNew] at hp'
      cases hp'
      exact absurd rfl (old i _ e hi₁ hp)
    · rw [addrNew] at hp
      rw [addrOld j hl'] at hp'
      cases hp
      exact absurd rfl (old j _ e' hj₁ hp')
    · rfl
  · intro p hp
    by_cases hpA : p = A s.1
    · subst hpA
      exact ⟨m.length, d, by simp, addrNew⟩
    · have : s.1 p ≠ none := by
        intro hh
        exact hp (by show (if p = A s.1 then _ else _) = _; rw [if_neg hpA]; exact hh)
      obtain ⟨i, e, hi, hq⟩ := h.only p this
      have hl : i < m.length := by
        by_contra hl
        rw [List.getElem?_eq_none (by omega)] at hi
        cases hi
      exact ⟨i, e, by rw [List.getElem?_append_left hl]; exact hi, by rw [addrOld i hl]; exact hq⟩

theorem holds_strike {s : Heap × List Addr} {m : Ledger} (h : Holds s m) {i : Nat} {d : Star} {p : Addr}
    (hi : m[i]? = some (some d)) (hp : s.2[i]? = some p) :
    Holds (fun a => if a = p then none else s.1 a, s.2) (m.set i none) := by
  have keep : ∀ (j : Nat) e, (m.set i none)[j]? = some (some e) → j ≠ i ∧ m[j]? = some (some e) := by
    intro j e hj
    rw [List.getElem?_set] at hj
    by_cases hij : i = j
    · subst hij
      rw [if_pos rfl] at hj
      split at hj <;> simp at hj
    · rw [if_neg hij] at hj
      exact ⟨fun hh => hij hh.symm, hj⟩
  refine ⟨by simp [h.len], ?_, ?_, ?_⟩
  · intro j e hj
    obtain ⟨hne, hj⟩ := keep j e hj
    obtain ⟨q, hq, hq0, hh⟩ := h.live j e hj
    refine ⟨q, hq, hq0, ?_⟩
    have : q ≠ p := by
      rintro rfl
      exact hne (h.apart j i q e d hj hi hq hp)
    show (if q = p then _ else _) = _
    rw [if_neg this]
    exact hh
  · intro j k q e e' hj hk hq hq'
    exact h.apart j k q e e' (keep j e hj).2 (keep k e' hk).2 hq hq'
  · intro q hq
    have hqp : q ≠ p := by
      rintro rfl
      exact hq (if_pos rfl)
    have : s.1 q ≠ none := by
      intro hh
      exact hq (by show (if q = p then _ else _) = _; rw [if_neg hqp]; exact hh)
    obtain ⟨j, e, hj, hjq⟩ := h.only q this
    refine ⟨j, e, ?_, hjq⟩
    have hne : i ≠ j := by
      rintro rfl
      rw [hp] at hjq
      exact hqp (Option.some.inj hjq).symm
    rw [List.getElem?_set_ne hne]
    exact hj

theorem step_ok {w : World} (hu : Unicode w.rest) (hA : Fresh w.alloc) {s : Heap × List Addr} {m m' : Ledger} {x : Call}
    {a : Answer} (h : Holds s m) (hs : Step constant w.position m x m' a) :
    ∃ s', call w s x = some (s', a) ∧ Holds s' m' := by
  have place : ∀ i, i < m.length → ∃ p, s.2[i]? = some p := fun i hi =>
    ⟨_, List.getElem?_eq_getElem (by rw [h.len]; exact hi)⟩
  cases hs with
  | unnamed => exact ⟨_, rfl, by simpa [catalog] using h⟩
  | nowhere =>
    rename_i n
    cases n <;> exact ⟨_, by simp [call, catalog]; rfl, by simpa using h⟩
  | garbled ho => exact ⟨_, by simp [call, catalog, ho]; rfl, by simpa using h⟩
  | found ho hd hn =>
    have := (found_iff hu _ _).2 ⟨_, hd, hn, rfl⟩
    exact ⟨_, by simp only [call, catalog, if_neg ho, this, box, Option.toList], holds_push hA h _⟩
  | unknown ho hn =>
    rename_i cs out
    cases hp : pick (cs.flatMap (upper w.rest)) with
    | some t =>
      obtain ⟨d, hd, hs, -⟩ := (found_iff hu _ _).1 hp
      exact absurd hs (hn d hd)
    | none => exact ⟨_, by simp only [call, catalog, if_neg ho, hp, Option.toList]; rfl, by simpa using h⟩
  | unnamed' => exact ⟨_, rfl, by simpa [create] using h⟩
  | nowhere' =>
    rename_i n x
    cases n <;> exact ⟨_, by simp [call, create]; rfl, by simpa using h⟩
  | garbled' ho => exact ⟨_, by simp [call, create, ho]; rfl, by simpa using h⟩
  | custom ho hp he =>
    exact ⟨_, by simp only [call, create, if_neg ho, hp, he, box, Option.toList], holds_push hA h _⟩
  | undated ho hp he =>
    rename_i cs x out p
    refine ⟨s, ?_, h⟩
    cases hx : x.epoch with
    | fin e => exact absurd hx (he e)
    | _ => simp [call, create, ho, hp, hx]
  | misplaced ho hp => exact ⟨s, by simp [call, create, ho, hp], h⟩
  | freeNull => exact ⟨s, by simp [call, pointer, free], h⟩
  | free hi =>
    obtain ⟨p, hp, hp0, hh⟩ := h.live _ _ hi
    exact ⟨_, by simp [call, pointer, free, hp, hp0, hh], holds_strike h hi hp⟩
  | nameNull => exact ⟨s, by simp [call, pointer, name], h⟩
  | nameNowhere hi =>
    obtain ⟨p, hp⟩ := place _ hi
    exact ⟨s, by simp [call, pointer, name, hp], h⟩
  | nameShort hb hi hl =>
    obtain ⟨p, hp, hp0, hh⟩ := h.live _ _ hi
    exact ⟨s, by simp [call, pointer, name, hp, hp0, hh, hb, Nat.lt_succ_of_le hl], h⟩
  | name hb hi hl hbs hw hw' =>
    rename_i i buf l bs bs' o st w'
    obtain ⟨p, hp, hp0, hh⟩ := h.live _ _ hi
    refine ⟨s, ?_, h⟩
    have e : w' = if o = 0 then none else some (bytes st.name).length := by
      split
      · exact hw.2 ‹_›
      · cases w' with
        | none => exact absurd (hw.1 rfl) ‹_›
        | some n => rw [hw' n rfl]
    subst e hbs
    simp [call, pointer, name, hp, hp0, hh, hb, show ¬ l < (bytes st.name).length + 1 by omega]
  | getNull => exact ⟨s, by simp [call, pointer, get], h⟩
  | get hi hx =>
    rename_i f i st x
    obtain ⟨p, hp, hp0, hh⟩ := h.live _ _ hi
    cases f <;> (simp only [Shows] at hx; subst hx; exact ⟨s, by simp [call, pointer, get, hp, hp0, hh], h⟩)
  | subjectNull => exact ⟨s, by simp [call, pointer, subject], h⟩
  | subject hi =>
    obtain ⟨p, hp, hp0, hh⟩ := h.live _ _ hi
    exact ⟨s, by simp [call, pointer, subject, hp, hp0, hh], h⟩

theorem steps_ok {w : World} (hu : Unicode w.rest) (hA : Fresh w.alloc) {m m' : Ledger} {xs : List Call}
    {as : List Answer} (hs : Steps constant w.position m xs m' as) : ∀ {s : Heap × List Addr}, Holds s m →
    ∃ s', run w s xs = some (s', as) ∧ Holds s' m' := by
  induction hs with
  | nil m => exact fun {s} h => ⟨s, rfl, h⟩
  | cons hx _ ih =>
    intro s h
    obtain ⟨s', h1, h2⟩ := step_ok hu hA h hx
    obtain ⟨s'', h3, h4⟩ := ih h2
    exact ⟨s'', by simp [run, h1, h3], h4⟩

theorem holds_empty : Holds (fun _ => none, []) [] := ⟨rfl, by simp, by simp, by simp⟩

/-- C232: the catalogue is as documented, and a client that uses only handles it holds, over any number of calls in any order,
meets no undefined behaviour and sees exactly the answers promised. At the end the heap holds the stars not released and nothing
else. -/
theorem client_history : ∃ star : Doc → Star, (∀ d ∈ documented, Agrees d (star d)) ∧
    ∀ (w : World), Unicode w.rest → Fresh w.alloc → ∀ (m : Ledger) (xs : List Call) (as : List Answer),
      Steps star w.position [] xs m as →
      ∃ heap handles, run w (fun _ => none, []) xs = some ((heap, handles), as) ∧ handles.length = m.length ∧
        (∀ (i : Nat) d, m[i]? = some (some d) → ∃ p, handles[i]? = some p ∧ p ≠ 0 ∧ heap p = some d) ∧
        (∀ p, heap p ≠ none → ∃ (i : Nat) (d : Star), m[i]? = some (some d) ∧ handles[i]? = some p) := by
  refine ⟨constant, constant_agrees, fun w hu hA m xs as hs => ?_⟩
  obtain ⟨⟨heap, handles⟩, h1, h2⟩ := steps_ok hu hA hs holds_empty
  exact ⟨heap, handles, h1, h2.len, h2.live, h2.only⟩

/-- C232: every call a client may make on live or null handles has exactly one kind of promise: no such call is left without an
answer. -/
theorem every_call_answered (star : Doc → Star) (position : F64 → F64 → F64 → Option Place) (m : Ledger) (x : Call)
    (hl : ∀ i, (x = .free (some i) ∨ (∃ b l bs o, x = .name (some i) b l bs o) ∨ (∃ f, x = .get f (some i)) ∨
      x = .subject (some i)) → ∃ s, m[i]? = some (some s)) :
    ∃ m' a, Step star position m x m' a := by
  cases x with
  | catalog n out =>
    by_cases ho : out = 0
    · subst ho; exact ⟨_, _, .nowhere⟩
    cases n with
    | null => exact ⟨_, _, .unnamed⟩
    | invalid => exact ⟨_, _, .garbled ho⟩
    | text cs =>
      by_cases hd : ∃ d ∈ documented, Spells cs d.name
      · obtain ⟨d, hd, hs⟩ := hd
        exact ⟨_, _, .found ho hd hs⟩
      · exact ⟨_, _, .unknown ho fun d h hs => hd ⟨d, h, hs⟩⟩
  | create n x out =>
    by_cases ho : out = 0
    · subst ho; exact ⟨_, _, .nowhere'⟩
    cases n with
    | null => exact ⟨_, _, .unnamed'⟩
    | invalid => exact ⟨_, _, .garbled' ho⟩
    | text cs =>
      cases hp : position x.ra x.dec x.distance with
      | none => exact ⟨_, _, .misplaced ho hp⟩
      | some p =>
        by_cases he : ∃ e, x.epoch = .fin e
        · obtain ⟨e, he⟩ := he
          exact ⟨_, _, .custom ho hp he⟩
        · exact ⟨_, _, .undated ho hp fun e h => he ⟨e, h⟩⟩
  | free i =>
    cases i with
    | none => exact ⟨_, _, .freeNull⟩
    | some i => obtain ⟨s, hs⟩ := hl i (.inl rfl); exact ⟨_, _, .free hs⟩
  | name i b l bs o =>
    cases i with
    | none => exact ⟨_, _, .nameNull⟩
    | some i =>
      obtain ⟨s, hs⟩ := hl i (.inr (.inl ⟨b, l, bs, o, rfl⟩))
      by_cases hb : b = 0
      · subst hb
        exact ⟨_, _, .nameNowhere (List.getElem?_eq_some_iff.1 hs).1⟩
      by_cases hlen : l ≤ (bytes s.name).length
      · exact ⟨_, _, .nameShort hb hs hlen⟩
      · exact ⟨_, _, .name (w := if o = 0 then none else some (bytes s.name).length) hb hs (by omega) rfl
          (by split <;> simp [*]) (by split <;> simp)⟩
  | get f i =>
    cases i with
    | none => exact ⟨_, _, .getNull⟩
    | some i =>
      obtain ⟨s, hs⟩ := hl i (.inr (.inr (.inl ⟨f, rfl⟩)))
      cases f
      · exact ⟨_, _, .get (f := .distance) hs rfl⟩
      · exact ⟨_, _, .get (f := .mass) hs rfl⟩
      · exact ⟨_, _, .get (f := .radius) hs rfl⟩
      · exact ⟨_, _, .get (f := .luminosity) hs rfl⟩
  | subject i =>
    cases i with
    | none => exact ⟨_, _, .subjectNull⟩
    | some i =>
      obtain ⟨s, hs⟩ := hl i (.inr (.inr (.inr rfl)))
      exact ⟨_, _, .subject hs⟩

/-- C232 (finding): a custom star is taken with whatever numbers: a negative mass, a radius that is not a number, an infinite
luminosity. The only number examined is the epoch. -/
theorem any_numbers (position : F64 → F64 → F64 → Option Place) (A : Alloc) (cs : List Char) (x : Args) (out : Addr) (h : Heap)
    (ho : out ≠ 0) {p e} (hp : position x.ra x.dec x.distance = some p) (he : x.epoch = .fin e) (mass radius luminosity : F64) :
    (create position A (.text cs) { x with mass := mass, radius := radius, luminosity := luminosity } out h).1 = .ok := by
  simp [create, ho, hp, he, box]

/-! ### Cases -/

theorem spells_example : Spells "sIrIuS".toList "Sirius" ∧ Spells ['ſ', 'i', 'r', 'ı', 'u', 's'] "Sirius" := by
  constructor
  · exact .cons ⟨'S', by decide, by unfold Same; decide, by decide⟩ (.cons ⟨'I', by decide, by unfold Same; decide, by decide⟩
      (.cons ⟨'R', by decide, by unfold Same; decide, by decide⟩ (.cons ⟨'I', by decide, by unfold Same; decide, by decide⟩
      (.cons ⟨'U', by decide, by unfold Same; decide, by decide⟩ (.cons ⟨'S', by decide, by unfold Same; decide, by decide⟩ .nil)))))
  · exact .cons ⟨'S', by decide, by unfold Same; decide, by decide⟩ (.cons ⟨'I', by decide, by unfold Same; decide, by decide⟩
      (.cons ⟨'R', by decide, by unfold Same; decide, by decide⟩ (.cons ⟨'I', by decide, by unfold Same; decide, by decide⟩
      (.cons ⟨'U', by decide, by unfold Same; decide, by decide⟩ (.cons ⟨'S', by decide, by unfold Same; decide, by decide⟩ .nil)))))

/-- Upper case that leaves everything beyond ASCII as it is meets the condition. -/
theorem unicode_example : Unicode fun c => [c] := fun c hc _ _ => .inl ⟨c, by simp, hc⟩

/-- A client that takes Sirius, reads its mass, releases it, and asks for a star that is not there. -/
example (star : Doc → Star) (position : F64 → F64 → F64 → Option Place) (d : Doc) (hd : d ∈ documented)
    (hn : d.name = "Sirius") (x : F64) (hx : (star d).mass = x) (hun : ∀ d ∈ documented, ¬ Spells "Sol".toList d.name) :
    Steps star position []
      [.catalog (.text "sIrIuS".toList) 8, .get .mass (some 0), .free (some 0), .catalog (.text "Sol".toList) 8, .get .mass none]
      [none] [.made .ok, .number x, .freed, .made .unknownStar, .number .nan] :=
  .cons (.found (by decide) hd (hn ▸ spells_example.1)) (.cons (.get (f := .mass) rfl hx) (.cons (.free rfl)
    (.cons (.unknown (by decide) hun) (.cons .getNull (.nil _)))))

end Verif.CStar.Props
