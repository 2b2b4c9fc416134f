import Verif.Omm.Model
import Verif.Kvn.Opm
import Verif.Tle.Props
import Mathlib.Data.List.TakeWhile

/-
Reading orbit mean-elements messages in their keyword and XML forms.
-/
namespace Verif.Omm.Props
open Verif.Text Verif.Omm
open Verif.Kvn.Props (Assigns Silent Says)

variable {T : Type}

/-! ### Specification -/

/-- The part of an epoch field that is read as a date: what precedes the first `+`, or, without one, what precedes the
final letters `Z`. -/
def DatePart (raw a : Str) : Prop :=
  (∃ z, trim raw = a ++ '+' :: z ∧ '+' ∉ a) ∨
  ('+' ∉ trim raw ∧ a.getLast? ≠ some 'Z' ∧ ∃ n, trim raw = a ++ List.replicate n 'Z')

/-- The time an epoch field denotes, given what `chrono` makes of a date. -/
def Instant (env : Env T) (raw : Str) (t : T) : Prop := ∃ a c, DatePart raw a ∧ env.parse a = some c ∧ env.make c = some t

/-- The classification a letter denotes. -/
def Letter : Char → Tle.Classification → Prop
  | 'U', .unclassified => True
  | 'C', .classified => True
  | 'S', .secret => True
  | _, _ => False

/-- A catalogue number of at most five digits, or a letter other than I and O and four digits (Alpha-5). -/
def Catalogue (s : Str) (n : Nat) : Prop :=
  (s.length ≤ 5 ∧ parseDigits s = some n) ∨
  ∃ k c d x, Tle.Spec.alpha5Alphabet[k]? = some c ∧ 10 ≤ k ∧ s = c :: d ∧ d.length = 4 ∧ parseDigits d = some x ∧ n = k * 10000 + x

/-- The field is a number, or is no number or missing and the value is zero. -/
def Lenient {α : Type} (read : Str → Option α) (val : String → Str → Prop) (key : String) (zero x : α) : Prop :=
  (∃ t, val key t ∧ read t = some x) ∨ ((∀ t, val key t → read t = none) ∧ x = zero)

def Strict (val : String → Str → Prop) (key : String) (x : F64) : Prop := ∃ t, val key t ∧ parseFloat t = some x

/-- What a document says, `val` being the values it gives to keywords and `un` the reading of names. -/
structure Means (env : Env T) (un : Str → Str) (val : String → Str → Prop) (o : Omm T) : Prop where
  theory : ∀ t, val "MEAN_ELEMENT_THEORY" t → t.map lower = "sgp4".toList
  name : ∃ t, val "OBJECT_NAME" t ∧ o.name = un t
  ident : ∃ t, val "OBJECT_ID" t ∧ o.ident = un t
  epoch : ∃ t, val "EPOCH" t ∧ Instant env t o.epoch
  cls : (∃ c t, val "CLASSIFICATION_TYPE" (c :: t) ∧ Letter c o.cls) ∨
    ((∀ t, val "CLASSIFICATION_TYPE" t → t = []) ∧ o.cls = .unclassified)
  norad : ∃ t, val "NORAD_CAT_ID" t ∧ Catalogue (trimStart t) o.norad
  meanMotion : Strict val "MEAN_MOTION" o.meanMotion
  ecc : Strict val "ECCENTRICITY" o.ecc
  inc : Strict val "INCLINATION" o.inc
  node : Strict val "RA_OF_ASC_NODE" o.node
  peri : Strict val "ARG_OF_PERICENTER" o.peri
  anomaly : Strict val "MEAN_ANOMALY" o.anomaly
  ephemeris : Lenient (parseUInt 255) val "EPHEMERIS_TYPE" 0 o.ephemeris
  elset : Lenient (parseUInt 65535) val "ELEMENT_SET_NO" 0 o.elset
  rev : Lenient (parseUInt 4294967295) val "REV_AT_EPOCH" 0 o.rev
  bstar : Lenient parseFloat val "BSTAR" (.num 0) o.bstar
  nDot : Lenient parseFloat val "MEAN_MOTION_DOT" (.num 0) o.nDot
  nDdot : Lenient parseFloat val "MEAN_MOTION_DDOT" (.num 0) o.nDdot

/-- The first element `<tag>…</tag>` of a document: the text from the first opening tag to the next closing tag. -/
def Element (input : Str) (tag : String) (v : Str) : Prop :=
  ∃ a b c, input = a ++ (('<' :: (tag.toList ++ ['>'])) ++ (b ++ (('<' :: '/' :: (tag.toList ++ ['>'])) ++ c))) ∧ v = trim b ∧
    (∀ a' c', input = a' ++ (('<' :: (tag.toList ++ ['>'])) ++ c') → a.length ≤ a'.length) ∧
    (∀ b' c', b ++ (('<' :: '/' :: (tag.toList ++ ['>'])) ++ c) = b' ++ (('<' :: '/' :: (tag.toList ++ ['>'])) ++ c') → b.length ≤ b'.length)

/-! ### Parts -/

theorem bind_ok_iff {α β : Type} {x : R α} {f : α → R β} {b : β} : x.bind f = .ok b ↔ ∃ a, x = .ok a ∧ f a = .ok b := by
  cases x <;> simp [Res.bind]

theorem ofOption_ok {α : Type} {e : Err} {o : Option α} {a : α} : Res.ofOption e o = .ok a ↔ o = some a := by
  cases o <;> simp [Res.ofOption]

theorem trimZ_spec (s : Str) : ∃ n, s = trimZ s ++ List.replicate n 'Z' ∧ (trimZ s).getLast? ≠ some 'Z' := by
  unfold trimZ
  have h1 := List.takeWhile_append_dropWhile (p := fun c => decide (c = 'Z')) (l := s.reverse)
  have h2 : s.reverse.takeWhile (fun c => decide (c = 'Z')) = List.replicate (s.reverse.takeWhile (fun c => decide (c = 'Z'))).length 'Z' := by
    apply List.eq_replicate_of_mem
    intro c hc
    simpa using List.mem_takeWhile_imp hc
  refine ⟨(s.reverse.takeWhile (fun c => decide (c = 'Z'))).length, ?_, ?_⟩
  · have h3 := congrArg List.reverse h1
    rw [List.reverse_append, List.reverse_reverse] at h3
    conv_lhs => rw [← h3]
    congr 1
    rw [h2]
    simp
  · rw [List.getLast?_reverse]
    intro h
    have := List.head?_dropWhile_not (fun c => decide (c = 'Z')) s.reverse
    rw [h] at this
    simp at this

theorem trimZ_eq {a : Str} {n : Nat} (h : a.getLast? ≠ some 'Z') : trimZ (a ++ List.replicate n 'Z') = a := by
  unfold trimZ
  rw [List.reverse_append, List.reverse_replicate, List.dropWhile_append_of_pos (by simp), List.dropWhile_eq_self_iff.mpr,
    List.reverse_reverse]
  intro hl
  simp only [decide_eq_true_eq]
  intro hz
  apply h
  rw [← List.head?_reverse, List.head?_eq_getElem?, List.getElem?_eq_getElem hl, hz]

theorem head_split (c : Char) (s : Str) : ∃ h, (splitChar c s).headD s = h ∧ c ∉ h ∧ (s = h ∨ ∃ r, s = h ++ c :: r) := by
  induction s with
  | nil => exact ⟨[], rfl, by simp, Or.inl rfl⟩
  | cons x xs ih =>
    unfold splitChar
    by_cases hx : x = c
    · rw [if_pos hx]
      exact ⟨[], rfl, by simp, Or.inr ⟨xs, by simp [hx]⟩⟩
    · rw [if_neg hx]
      obtain ⟨h, he, hn, hs⟩ := ih
      rcases hsp : splitChar c xs with _ | ⟨y, ys⟩
      · rw [hsp] at he
        refine ⟨[x], rfl, by simpa using Ne.symm hx, ?_⟩
        exfalso
        revert hsp
        cases xs with
        | nil => simp [splitChar]
        | cons z zs =>
          unfold splitChar
          split
          · simp
          · split <;> simp
      · rw [hsp] at he
        simp only [List.headD_cons] at he
        refine ⟨x :: y, rfl, by rw [he]; simp [hn, Ne.symm hx], ?_⟩
        rw [he]
        rcases hs with hs | ⟨r, hs⟩
        · left; rw [← hs]
        · right; exact ⟨r, by rw [hs]; rfl⟩

theorem append_cons_unique {c : Char} {a b x y : Str} (ha : c ∉ a) (hb : c ∉ b) (h : a ++ c :: x = b ++ c :: y) : a = b ∧ x = y := by
  have := find1_append ha x
  rw [h, find1_append hb] at this
  simp only [Option.some.injEq, Prod.mk.injEq] at this
  exact ⟨this.1.symm, this.2.symm⟩

/-- The text handed to `chrono`. -/
theorem datePart_iff (raw a : Str) : (splitChar '+' (trimZ (trim raw))).headD (trimZ (trim raw)) = a ↔ DatePart raw a := by
  obtain ⟨n, hn, hz⟩ := trimZ_spec (trim raw)
  obtain ⟨h, he, hp, hs⟩ := head_split '+' (trimZ (trim raw))
  rw [he]
  unfold DatePart
  have hr : '+' ∉ List.replicate n 'Z' := fun hc => absurd (List.eq_of_mem_replicate hc) (by decide)
  rcases hs with hs | ⟨r, hs⟩
  · have hno : '+' ∉ trim raw := by
      rw [hn, hs]
      simp only [List.mem_append, not_or]
      exact ⟨hp, hr⟩
    constructor
    · rintro rfl
      exact Or.inr ⟨hno, hs ▸ hz, n, by rw [← hs]; exact hn⟩
    · rintro (⟨z, hz', _⟩ | ⟨_, hl, k, hk⟩)
      · exact absurd (by rw [hz']; simp) hno
      · rw [← hs, hk, trimZ_eq hl]
  · have hyes : trim raw = h ++ '+' :: (r ++ List.replicate n 'Z') := by
      conv_lhs => rw [hn, hs]
      simp
    constructor
    · rintro rfl
      exact Or.inl ⟨_, hyes, hp⟩
    · rintro (⟨z, hz', ha⟩ | ⟨hno, _⟩)
      · exact (append_cons_unique ha hp (hz'.symm.trans hyes)).1.symm
      · exact absurd (by rw [hyes]; simp) hno

theorem parseEpoch_iff (env : Env T) (raw : Str) (t : T) : parseEpoch env raw = .ok t ↔ Instant env raw t := by
  unfold parseEpoch Instant
  simp only [bind_ok_iff, ofOption_ok, ← datePart_iff]
  constructor
  · rintro ⟨c, h1, h2⟩
    exact ⟨_, c, rfl, h1, h2⟩
  · rintro ⟨a, c, rfl, h1, h2⟩
    exact ⟨c, h1, h2⟩

theorem fromChar_iff (c : Char) (k : Tle.Classification) : fromChar c = .ok k ↔ Letter c k := by
  unfold fromChar
  by_cases h1 : c = 'U'
  · subst h1; cases k <;> simp [Letter]
  by_cases h2 : c = 'C'
  · subst h2; cases k <;> simp [Letter]
  by_cases h3 : c = 'S'
  · subst h3; cases k <;> simp [Letter]
  · rw [if_neg h1, if_neg h2, if_neg h3]
    unfold Letter
    split <;> simp_all

theorem getf_iff (m : Kvn.Map) (k : String) (x : F64) : getf m k = .ok x ↔ Strict (fun k t => m k.toList = some t) k x := by
  unfold getf get Strict
  simp only [bind_ok_iff, ofOption_ok]

theorem lenient_iff {α : Type} (read : Str → Option α) (m : Kvn.Map) (k : String) (zero x : α) :
    ((m k.toList).bind read).getD zero = x ↔ Lenient read (fun k t => m k.toList = some t) k zero x := by
  unfold Lenient
  rcases h : m k.toList with _ | t
  · simp [h, eq_comm]
  · rcases h2 : read t with _ | y
    · simp [h, h2, eq_comm]
    · simp [h, h2]

theorem letter_iff {c : Char} (hc : c.toNat < 128) (k : Nat) :
    Tle.letterValue c.toNat = some k ↔ Tle.Spec.alpha5Alphabet[k]? = some c ∧ 10 ≤ k := by
  have : ∀ n : Fin 128, ∀ k : Fin 34, (Tle.letterValue n.val = some k.val ↔
      Tle.Spec.alpha5Alphabet[k.val]? = some (Char.ofNat n.val) ∧ 10 ≤ k.val) := by decide +kernel
  have hcc : Char.ofNat c.toNat = c := Char.ofNat_toNat c
  by_cases hk : k < 34
  · have := this ⟨c.toNat, hc⟩ ⟨k, hk⟩
    rw [hcc] at this
    exact this
  · constructor
    · intro h
      unfold Tle.letterValue at h
      exfalso
      split at h
      · cases h; omega
      · split at h
        · cases h; omega
        · split at h
          · cases h; omega
          · cases h
    · rintro ⟨h, _⟩
      rw [List.getElem?_eq_none (by
        have : Tle.Spec.alpha5Alphabet.length = 34 := by decide +kernel
        omega)] at h
      cases h

theorem first_hi {c : Char} (h : 128 ≤ c.toNat) : ∃ b bs, String.utf8EncodeChar c = b :: bs ∧ 128 ≤ b.toNat := by
  have h1 := Tle.utf8EncodeChar_hi h
  have h2 : (String.utf8EncodeChar c).length = c.utf8Size := by simp
  have h3 := Char.utf8Size_pos c
  rcases hq : String.utf8EncodeChar c with _ | ⟨b, bs⟩
  · rw [hq] at h2; simp at h2; omega
  · exact ⟨b, bs, rfl, h1 b (by rw [hq]; simp)⟩

theorem digits_utf8 (d : Str) : (utf8 d).all Tle.isDigitB = true ↔ d.all Char.isDigit = true := by
  induction d with
  | nil => rfl
  | cons c d ih =>
    have e : utf8 (c :: d) = String.utf8EncodeChar c ++ utf8 d := rfl
    rw [e, List.all_append, List.all_cons, Bool.and_eq_true, Bool.and_eq_true, ih]
    by_cases hc : c.toNat < 128
    · rw [utf8_ascii_cons hc]
      simp [Tle.isDigitB_char hc]
    · have hd : c.isDigit = false := by
        rw [Bool.eq_false_iff]
        intro h
        have := all_digit_ascii (s := [c]) (by simpa using h) c (by simp)
        omega
      obtain ⟨b, bs, hbs, hge⟩ := first_hi (c := c) (by omega)
      have hb : Tle.isDigitB b = false := by
        unfold Tle.isDigitB
        simp
        omega
      rw [hbs, List.all_cons, hb, hd]
      simp

theorem byteAt_zero (c : Char) (d : Str) : ∃ b, Tle.byteAt (c :: d) 0 = some b ∧
    (c.toNat < 128 ∧ b = UInt8.ofNat c.toNat ∨ 128 ≤ c.toNat ∧ 128 ≤ b.toNat) := by
  by_cases hc : c.toNat < 128
  · exact ⟨_, Tle.byteAt_cons_zero hc d, Or.inl ⟨hc, rfl⟩⟩
  · obtain ⟨b, bs, hbs, hge⟩ := first_hi (c := c) (by omega)
    refine ⟨b, ?_, Or.inr ⟨by omega, hge⟩⟩
    unfold Tle.byteAt
    have e : utf8 (c :: d) = String.utf8EncodeChar c ++ utf8 d := rfl
    rw [e, hbs]
    rfl

theorem parseDigits_iff {s : Str} {n : Nat} : parseDigits s = some n ↔ s ≠ [] ∧ s.all Char.isDigit = true ∧ digitsVal s = n := by
  unfold parseDigits
  split
  · rename_i h
    simp [h.1]
    intro _
    simpa using h.2
  · rename_i h
    simp only [reduceCtorEq, false_iff]
    rintro ⟨h1, h2, _⟩
    exact h ⟨h1, h2⟩

/-- The catalogue number field. -/
theorem satellite_iff (s : Str) : (∀ n, satellite s = .ok n ↔ Catalogue (trimStart s) n) ∧ satellite s ≠ .panic := by
  unfold satellite Tle.parseSat
  generalize trimStart s = u
  cases u with
  | nil =>
    refine ⟨fun n => ?_, by simp⟩
    simp only [true_or, if_true, reduceCtorEq, false_iff]
    rintro (⟨_, h⟩ | ⟨k, c, d, x, _, _, h, _⟩)
    · simp [parseDigits] at h
    · cases h
  | cons c d =>
    obtain ⟨b, hb, hcase⟩ := byteAt_zero c d
    by_cases hlen : blen (c :: d) > 5
    · simp only [hlen, or_true, if_true]
      refine ⟨fun n => ?_, by simp⟩
      simp only [reduceCtorEq, false_iff]
      rintro (⟨h1, h⟩ | ⟨k, c', d', x, hk, h10, h, h4, hx, _⟩)
      · obtain ⟨_, h2, _⟩ := parseDigits_iff.mp h
        rw [blen_ascii (all_digit_ascii h2)] at hlen
        omega
      · cases h
        obtain ⟨_, h2, _⟩ := parseDigits_iff.mp hx
        have hk34 : k < 34 := by
          by_contra hc
          rw [List.getElem?_eq_none (by
            have : Tle.Spec.alpha5Alphabet.length = 34 := by decide +kernel
            omega)] at hk
          cases hk
        obtain ⟨c', h1, hasc, _⟩ := Tle.alphabet_reader ⟨k, hk34⟩
        rw [hk] at h1
        cases h1
        rw [blen_ascii (isAscii_cons.mpr ⟨hasc, all_digit_ascii h2⟩)] at hlen
        simp [h4] at hlen
    · have hl5 : (c :: d).length ≤ 5 := by
        have := Tle.Props.length_le_blen (c :: d)
        omega
      simp only [reduceCtorEq, hlen, or_self, if_false, hb, Res.orPanic, Res.bind_ok]
      rcases hcase with ⟨hc, rfl⟩ | ⟨hc, hbb⟩
      · rw [Tle.isDigitB_char hc, Tle.ofNat_toNat_ascii hc]
        by_cases hd : c.isDigit = true
        · rw [if_pos hd]
          have hp : parseUInt Tle.u32Max (c :: d) = parseDigits (c :: d) := by
            by_cases ha : (c :: d).all Char.isDigit = true
            · rw [parseDigits_of ha (by simp), parseUInt_of ha (by simp)]
              have := Tle.Props.digitsVal_lt _ ha
              have h2 : (10 : ℕ) ^ (c :: d).length ≤ 10 ^ 5 := Nat.pow_le_pow_right (by omega) hl5
              unfold Tle.u32Max
              omega
            · have : parseDigits (c :: d) = none := by
                unfold parseDigits
                rw [if_neg (fun h => ha h.2)]
              rw [this]
              unfold parseUInt
              split
              · rename_i t ht
                cases ht
                simp at hd
              · simp [this]
          rw [hp]
          constructor
          · intro n
            rcases hq : parseDigits (c :: d) with _ | m
            · simp only [Res.ofOption, reduceCtorEq, false_iff]
              rintro (⟨_, h⟩ | ⟨k, c', d', x, hk, h10, h, _⟩)
              · rw [hq] at h; cases h
              · cases h
                have := (letter_iff hc k).mpr ⟨hk, h10⟩
                unfold Tle.letterValue at this
                have hr := isDigit_range.mp hd
                split at this
                · omega
                · split at this
                  · omega
                  · split at this
                    · omega
                    · cases this
            · simp only [Res.ofOption, Res.ok.injEq]
              constructor
              · rintro rfl
                exact Or.inl ⟨hl5, hq⟩
              · rintro (⟨_, h⟩ | ⟨k, c', d', x, hk, h10, h, _⟩)
                · rw [hq] at h; cases h; rfl
                · cases h
                  have := (letter_iff hc k).mpr ⟨hk, h10⟩
                  unfold Tle.letterValue at this
                  have hr := isDigit_range.mp hd
                  split at this
                  · omega
                  · split at this
                    · omega
                    · split at this
                      · omega
                      · cases this
          · rcases parseDigits (c :: d) with _ | m <;> simp [Res.ofOption]
        · rw [if_neg hd]
          have hnd : ∀ n, parseDigits (c :: d) ≠ some n := by
            intro n h
            have := (parseDigits_iff.mp h).2.1
            simp only [List.all_cons, Bool.and_eq_true] at this
            exact hd this.1
          rcases hlv : Tle.letterValue c.toNat with _ | k
          · refine ⟨fun n => ?_, by simp⟩
            simp only [reduceCtorEq, false_iff]
            rintro (⟨_, h⟩ | ⟨k, c', d', x, hk, h10, h, _⟩)
            · exact hnd n h
            · cases h
              rw [(letter_iff hc k).mpr ⟨hk, h10⟩] at hlv
              cases hlv
          · have hdrop : dropB (c :: d) 1 = some d := by
              show (if c.utf8Size ≤ 0 + 1 then dropB d (0 + 1 - c.utf8Size) else none) = _
              rw [utf8Size_ascii hc]
              cases d <;> rfl
            simp only [hdrop, Res.bind_ok]
            obtain ⟨hk1, hk2⟩ := (letter_iff hc k).mp hlv
            by_cases hbad : blen d ≠ 4 ∨ ¬ (utf8 d).all Tle.isDigitB
            · rw [if_pos hbad]
              refine ⟨fun n => ?_, by simp⟩
              simp only [reduceCtorEq, false_iff]
              rintro (⟨_, h⟩ | ⟨k, c', d', x, hk, h10, h, h4, hx, _⟩)
              · exact hnd n h
              · cases h
                have hdd := (parseDigits_iff.mp hx).2.1
                rcases hbad with hbad | hbad
                · rw [blen_ascii (all_digit_ascii hdd)] at hbad
                  exact hbad h4
                · exact hbad ((digits_utf8 d).mpr hdd)
            · rw [if_neg hbad]
              push Not at hbad
              have hdd := (digits_utf8 d).mp hbad.2
              have h4 : d.length = 4 := by rw [← blen_ascii (all_digit_ascii hdd)]; exact hbad.1
              have hne : d ≠ [] := by rintro rfl; simp at h4
              have hlt := Tle.Props.digitsVal_lt _ hdd
              rw [h4] at hlt
              rw [parseUInt_of hdd hne (by unfold Tle.u32Max; omega)]
              simp only [Res.ofOption, Res.bind_ok]
              refine ⟨fun n => ?_, by simp⟩
              simp only [Res.ok.injEq]
              constructor
              · rintro rfl
                exact Or.inr ⟨k, c, d, _, hk1, hk2, rfl, h4, parseDigits_of hdd hne, rfl⟩
              · rintro (⟨_, h⟩ | ⟨k', c', d', x, hk, h10, h, h4, hx, rfl⟩)
                · exact absurd h (hnd n)
                · cases h
                  have := (letter_iff hc k').mpr ⟨hk, h10⟩
                  rw [hlv] at this
                  cases this
                  rw [parseDigits_of hdd hne] at hx
                  cases hx
                  rfl
      · have h1 : Tle.isDigitB b = false := by unfold Tle.isDigitB; simp; omega
        have h2 : Tle.letterValue b.toNat = none := by
          unfold Tle.letterValue
          rw [if_neg (by omega), if_neg (by omega), if_neg (by omega)]
        rw [h1, h2]
        refine ⟨fun n => ?_, by simp⟩
        simp only [Bool.false_eq_true, if_false, reduceCtorEq, false_iff]
        rintro (⟨_, h⟩ | ⟨k, c', d', x, hk, h10, h, _⟩)
        · have := all_digit_ascii (parseDigits_iff.mp h).2.1 c (by simp)
          omega
        · cases h
          have hk34 : k < 34 := by
            by_contra hc
            rw [List.getElem?_eq_none (by
              have : Tle.Spec.alpha5Alphabet.length = 34 := by decide +kernel
              omega)] at hk
            cases hk
          obtain ⟨c', h1, hasc, _⟩ := Tle.alphabet_reader ⟨k, hk34⟩
          rw [hk] at h1
          cases h1
          omega

/-! ### The whole record -/

theorem build_iff (env : Env T) (un : Str → Str) (m : Kvn.Map) :
    (∀ o, build env un m = .ok o ↔ Means env un (fun k t => m k.toList = some t) o) ∧ build env un m ≠ .panic := by
  unfold build
  dsimp only
  have hth : eqIgnoreCase ((m "MEAN_ELEMENT_THEORY".toList).getD "SGP4".toList) "SGP4".toList = false ↔
      ¬ ∀ t, m "MEAN_ELEMENT_THEORY".toList = some t → t.map lower = "sgp4".toList := by
    have e : "SGP4".toList.map lower = "sgp4".toList := by decide
    unfold eqIgnoreCase
    rw [e]
    rcases h : m "MEAN_ELEMENT_THEORY".toList with _ | t
    · rw [Option.getD_none, e]
      simp
    · simp
  by_cases hx : eqIgnoreCase ((m "MEAN_ELEMENT_THEORY".toList).getD "SGP4".toList) "SGP4".toList = false
  · rw [if_pos hx]
    refine ⟨fun o => ?_, by simp⟩
    simp only [reduceCtorEq, false_iff]
    intro h
    exact hth.mp hx h.theory
  · rw [if_neg hx]
    have hx := not_not.mp (mt hth.mpr hx)
    have hcls : ∀ k, fromChar (((m "CLASSIFICATION_TYPE".toList).getD "U".toList).headD 'U') = .ok k ↔
        ((∃ c t, m "CLASSIFICATION_TYPE".toList = some (c :: t) ∧ Letter c k) ∨
          ((∀ t, m "CLASSIFICATION_TYPE".toList = some t → t = []) ∧ k = .unclassified)) := by
      intro k
      rw [fromChar_iff]
      have hu : Letter 'U' k ↔ k = .unclassified := by cases k <;> simp [Letter]
      rcases h : m "CLASSIFICATION_TYPE".toList with _ | t
      · rw [Option.getD_none, show ("U".toList).headD 'U' = 'U' by decide, hu]
        simp
      · rw [Option.getD_some]
        cases t with
        | nil => rw [List.headD_nil, hu]; simp
        | cons c t => simp
    constructor
    · intro o
      simp only [bind_ok_iff, get, ofOption_ok, parseEpoch_iff, hcls, (satellite_iff _).1, getf_iff]
      constructor
      · rintro ⟨name, h1, ident, h2, epoch, ⟨te, h3, h3'⟩, cls, h4, norad, ⟨tn, h5, h5'⟩, mm, h6, ecc, h7, inc, h8, node, h9,
          peri, h10, anomaly, h11, ho⟩
        cases ho
        exact ⟨hx, ⟨_, h1, rfl⟩, ⟨_, h2, rfl⟩, ⟨te, h3, h3'⟩, h4, ⟨tn, h5, h5'⟩, h6, h7, h8, h9, h10, h11,
          (lenient_iff _ _ _ _ _).mp rfl, (lenient_iff _ _ _ _ _).mp rfl, (lenient_iff _ _ _ _ _).mp rfl,
          (lenient_iff _ _ _ _ _).mp rfl, (lenient_iff _ _ _ _ _).mp rfl, (lenient_iff _ _ _ _ _).mp rfl⟩
      · intro h
        obtain ⟨t1, h1, e1⟩ := h.name
        obtain ⟨t2, h2, e2⟩ := h.ident
        obtain ⟨t3, h3, e3⟩ := h.epoch
        obtain ⟨t5, h5, e5⟩ := h.norad
        refine ⟨t1, h1, t2, h2, o.epoch, ⟨t3, h3, e3⟩, o.cls, h.cls, o.norad, ⟨t5, h5, e5⟩, _, h.meanMotion, _, h.ecc, _, h.inc,
          _, h.node, _, h.peri, _, h.anomaly, ?_⟩
        have k1 := (lenient_iff _ _ _ _ _).mpr h.ephemeris
        have k2 := (lenient_iff _ _ _ _ _).mpr h.elset
        have k3 := (lenient_iff _ _ _ _ _).mpr h.rev
        have k4 := (lenient_iff _ _ _ _ _).mpr h.bstar
        have k5 := (lenient_iff _ _ _ _ _).mpr h.nDot
        have k6 := (lenient_iff _ _ _ _ _).mpr h.nDdot
        rw [← e1, ← e2]
        unfold optf optu
        rw [k4, k5, k6]
        norm_num only
        rw [k1, k2, k3]
    · have oo : ∀ {α : Type} {e : Err} {x : Option α}, (Res.ofOption e x : R α) ≠ .panic := by
        intro α e x; cases x <;> simp [Res.ofOption]
      have b : ∀ {α β : Type} {x : R α} {f : α → R β}, x ≠ .panic → (∀ a, f a ≠ .panic) → x.bind f ≠ .panic := by
        intro α β x f hx hf
        cases x with
        | ok a => exact hf a
        | err e => simp [Res.bind]
        | panic => exact absurd rfl hx
      have gf : ∀ k, getf m k ≠ .panic := fun k => b oo fun _ => oo
      have fc : ∀ c, fromChar c ≠ .panic := by
        intro c; unfold fromChar; split <;> [simp; (split <;> [simp; (split <;> simp)])]
      exact b oo fun _ => b oo fun _ => b (b oo fun _ => b oo fun _ => oo) fun _ => b (fc _) fun _ =>
        b (b oo fun _ => (satellite_iff _).2) fun _ => b (gf _) fun _ => b (gf _) fun _ => b (gf _) fun _ => b (gf _) fun _ =>
        b (gf _) fun _ => b (gf _) fun _ => by simp

theorem kvnLine_eq : kvnLine = Kvn.opmLine := by
  funext m raw
  unfold kvnLine Kvn.opmLine
  dsimp only
  by_cases h : trim raw = [] ∨ "COMMENT".toList.isPrefixOf (trim raw) = true
  · rw [if_pos h, if_pos (h.elim Or.inl (fun h => Or.inr (Or.inl h)))]
  · rw [if_neg h]
    by_cases h2 : trim raw = "META_START".toList ∨ trim raw = "META_STOP".toList
    · rw [if_pos (Or.inr (Or.inr h2))]
      have : find1 '=' (trim raw) = none := by rcases h2 with h2 | h2 <;> rw [h2] <;> decide
      rw [this]
    · have h3 : ¬ (trim raw = [] ∨ "COMMENT".toList.isPrefixOf (trim raw) = true ∨ trim raw = "META_START".toList ∨ trim raw = "META_STOP".toList) := by
        rintro (h' | h' | h')
        · exact h (Or.inl h')
        · exact h (Or.inr h')
        · exact h2 h'
      rw [if_neg h3]
      rfl

theorem means_congr {env : Env T} {un : Str → Str} {v w : String → Str → Prop} {o : Omm T} (h : ∀ k t, v k t ↔ w k t) :
    Means env un v o ↔ Means env un w o := by
  have : v = w := by funext k t; exact propext (h k t)
  rw [this]

/-- A keyword document is read exactly when it gives a name, an identifier, a readable epoch, a catalogue number, the six
mean elements and no other theory than SGP4; the last line about a keyword counts and the result is what the document
says. There is no other outcome than a message or an error. -/
theorem kvn_reads (env : Env T) (text : Str) :
    (∀ o, readKvn env text = .ok o ↔ Means env id (Says (lines text)) o) ∧ readKvn env text ≠ .panic := by
  unfold readKvn
  rw [kvnLine_eq]
  obtain ⟨h1, h2⟩ := build_iff env id ((lines text).foldl Kvn.opmLine (fun _ => none))
  refine ⟨fun o => ?_, h2⟩
  rw [h1]
  exact means_congr (fun k t => (Kvn.Props.table_says (lines text) k).1 t)

/-! ### XML -/

theorem findSub_some {p s a b : Str} (h : findSub p s = some (a, b)) :
    s = a ++ (p ++ b) ∧ ∀ a' b', s = a' ++ (p ++ b') → a.length ≤ a'.length := by
  induction s generalizing a with
  | nil =>
    unfold findSub at h
    split at h
    · rename_i hp
      cases h
      subst hp
      simp
    · cases h
  | cons c t ih =>
    unfold findSub at h
    split at h
    · rename_i hp
      cases h
      have := List.isPrefixOf_iff_prefix.mp hp
      obtain ⟨r, hr⟩ := this
      refine ⟨?_, by simp⟩
      rw [← hr]
      simp
    · rename_i hp
      rcases hf : findSub p t with _ | ⟨a', b'⟩
      · rw [hf] at h; cases h
      · rw [hf] at h
        cases h
        obtain ⟨h1, h2⟩ := ih hf
        refine ⟨by rw [h1]; rfl, ?_⟩
        intro x y hxy
        cases x with
        | nil => exact absurd (List.isPrefixOf_iff_prefix.mpr ⟨y, hxy.symm⟩) hp
        | cons z x =>
          simp only [List.cons_append, List.cons.injEq] at hxy
          have := h2 x y hxy.2
          simp; omega

theorem findSub_none {p s : Str} (h : findSub p s = none) (a b : Str) : s ≠ a ++ (p ++ b) := by
  induction s generalizing a with
  | nil =>
    unfold findSub at h
    split at h
    · cases h
    · rename_i hp
      intro hc
      have := congrArg List.length hc
      simp only [List.length_nil, List.length_append] at this
      exact hp (List.length_eq_zero_iff.mp (by omega))
  | cons c t ih =>
    unfold findSub at h
    split at h
    · cases h
    · rename_i hp
      intro hc
      cases a with
      | nil => exact hp (List.isPrefixOf_iff_prefix.mpr ⟨b, hc.symm⟩)
      | cons z a =>
        simp only [List.cons_append, List.cons.injEq] at hc
        exact ih (by simpa using h) a hc.2

theorem findSub_iff {p s a b : Str} : findSub p s = some (a, b) ↔
    s = a ++ (p ++ b) ∧ ∀ a' b', s = a' ++ (p ++ b') → a.length ≤ a'.length := by
  refine ⟨findSub_some, ?_⟩
  rintro ⟨h1, h2⟩
  rcases h : findSub p s with _ | ⟨x, y⟩
  · exact absurd h1 (findSub_none h a b)
  · obtain ⟨g1, g2⟩ := findSub_some h
    have l1 := h2 x y g1
    have l2 := g2 a b h1
    have := List.append_inj (g1.symm.trans h1) (by omega)
    rw [this.1, List.append_cancel_left this.2]

theorem element_iff (input : Str) (tag : String) (v : Str) : extractTag input tag.toList = some v ↔ Element input tag v := by
  unfold extractTag Element
  simp only [Option.bind_eq_some_iff, Option.map_eq_some_iff, Prod.exists, findSub_iff]
  constructor
  · rintro ⟨a, r, ⟨h1, h2⟩, b, c, ⟨h3, h4⟩, rfl⟩
    refine ⟨a, b, c, ?_, rfl, h2, ?_⟩
    · rw [h1]
      congr 2
    · rw [← h3]
      exact h4
  · rintro ⟨a, b, c, h1, rfl, h2, h3⟩
    exact ⟨a, _, ⟨h1, h2⟩, b, c, ⟨rfl, h3⟩, rfl⟩

/-- An XML document is read exactly when its first elements of each name give a name, an identifier, a readable epoch, a
catalogue number, the six mean elements and no other theory than SGP4; the result is what they say, names with the five
entities replaced. There is no other outcome than a message or an error. -/
theorem xml_reads (env : Env T) (text : Str) :
    (∀ o, readXml env text = .ok o ↔ Means env unescape (Element text) o) ∧ readXml env text ≠ .panic := by
  unfold readXml
  obtain ⟨h1, h2⟩ := build_iff env unescape (xmlMap text)
  refine ⟨fun o => ?_, h2⟩
  rw [h1]
  have key : ∀ k : String, k ∈ tags → ∀ t, (xmlMap text k.toList = some t ↔ Element text k t) := by
    intro k hk t
    unfold xmlMap
    rw [if_pos (List.mem_map_of_mem hk), element_iff]
  have st : ∀ k : String, k ∈ tags → ∀ x, (Strict (fun k t => xmlMap text k.toList = some t) k x ↔ Strict (Element text) k x) := by
    intro k hk x
    unfold Strict
    simp only [key k hk]
  have le : ∀ {α : Type} (read : Str → Option α) (k : String), k ∈ tags → ∀ z x,
      (Lenient read (fun k t => xmlMap text k.toList = some t) k z x ↔ Lenient read (Element text) k z x) := by
    intro α read k hk z x
    unfold Lenient
    simp only [key k hk]
  constructor <;> rintro ⟨m1, m2, m3, m4, m5, m6, m7, m8, m9, m10, m11, m12, m13, m14, m15, m16, m17, m18⟩
  · simp only [key _ (show "MEAN_ELEMENT_THEORY" ∈ tags by decide)] at m1
    simp only [key _ (show "OBJECT_NAME" ∈ tags by decide)] at m2
    simp only [key _ (show "OBJECT_ID" ∈ tags by decide)] at m3
    simp only [key _ (show "EPOCH" ∈ tags by decide)] at m4
    simp only [key _ (show "CLASSIFICATION_TYPE" ∈ tags by decide)] at m5
    simp only [key _ (show "NORAD_CAT_ID" ∈ tags by decide)] at m6
    exact ⟨m1, m2, m3, m4, m5, m6, (st _ (by decide) _).mp m7, (st _ (by decide) _).mp m8, (st _ (by decide) _).mp m9,
      (st _ (by decide) _).mp m10, (st _ (by decide) _).mp m11, (st _ (by decide) _).mp m12, (le _ _ (by decide) _ _).mp m13,
      (le _ _ (by decide) _ _).mp m14, (le _ _ (by decide) _ _).mp m15, (le _ _ (by decide) _ _).mp m16,
      (le _ _ (by decide) _ _).mp m17, (le _ _ (by decide) _ _).mp m18⟩
  · simp only [← key _ (show "MEAN_ELEMENT_THEORY" ∈ tags by decide)] at m1
    simp only [← key _ (show "OBJECT_NAME" ∈ tags by decide)] at m2
    simp only [← key _ (show "OBJECT_ID" ∈ tags by decide)] at m3
    simp only [← key _ (show "EPOCH" ∈ tags by decide)] at m4
    simp only [← key _ (show "CLASSIFICATION_TYPE" ∈ tags by decide)] at m5
    simp only [← key _ (show "NORAD_CAT_ID" ∈ tags by decide)] at m6
    exact ⟨m1, m2, m3, m4, m5, m6, (st _ (by decide) _).mpr m7, (st _ (by decide) _).mpr m8, (st _ (by decide) _).mpr m9,
      (st _ (by decide) _).mpr m10, (st _ (by decide) _).mpr m11, (st _ (by decide) _).mpr m12, (le _ _ (by decide) _ _).mpr m13,
      (le _ _ (by decide) _ _).mpr m14, (le _ _ (by decide) _ _).mpr m15, (le _ _ (by decide) _ _).mpr m16,
      (le _ _ (by decide) _ _).mpr m17, (le _ _ (by decide) _ _).mpr m18⟩

end Verif.Omm.Props
