import Verif.Rinex.Model
import Verif.Sp3.Read
import Verif.Text.Lemmas
import Mathlib.Tactic.Ring
import Mathlib.Tactic.NormNum

namespace Verif.Rinex
open Verif.Text Verif.Sp3

/-! ### Specification: the records of a text, and what one record says -/
namespace Spec

/-- A GPS record begins here: at least four bytes, the first a `G` or a digit. -/
def Begins (l : Str) : Prop := 4 ≤ blen l ∧ ∃ c t, l = c :: t ∧ (c = 'G' ∨ c.isDigit = true)

/-- The lines after the header, cut into records of eight lines; lines between records are ignored. The last component
says that the text ends inside a record. -/
inductive Split : List Str → List (Str × List Str) → Bool → Prop
  | nil : Split [] [] false
  | other {l : Str} {rest : List Str} {bs : List (Str × List Str)} {t : Bool} : ¬ Begins l → Split rest bs t → Split (l :: rest) bs t
  | record {l : Str} {body rest : List Str} {bs : List (Str × List Str)} {t : Bool} :
      Begins l → body.length = 7 → Split rest bs t → Split (l :: (body ++ rest)) ((l, body) :: bs) t
  | cut {l : Str} {rest : List Str} : Begins l → rest.length < 7 → Split (l :: rest) [] true

/-- A Fortran number: `D` may stand for the exponent letter. -/
def Number (w : Str) (v : F64) : Prop :=
  parseFloat (w.map (fun c => if c = 'D' then 'E' else if c = 'd' then 'e' else c)) = some v

/-- The words of a line are these numbers. -/
def Values (l : Str) (vs : List F64) : Prop := List.Forall₂ Number (words l) vs

/-- The integers and the seconds of the epoch are these, and name the moment `t`. -/
structure Moment {T : Type} (env : Env T) (y mo d h mi : Int) (s : F64) (t : T) : Prop where
  moment : ∃ (c : Civil) (q : ℚ), s = .num q ∧ 0 ≤ q ∧ c.year = y ∧ (c.month : Int) = mo ∧ (c.day : Int) = d ∧ (c.hour : Int) = h ∧ (c.minute : Int) = mi ∧
    (c.second : Int) = ⌊q⌋ ∧ c.nano = roundHalfUp ((q - (⌊q⌋ : ℚ)) * 10 ^ 9) ∧ env.dateOk c.year c.month c.day = true ∧
    timeOk c.hour c.minute c.second c.nano = true ∧ env.ofChrono c = some t

/-- The satellite number: after a `G`, two columns; otherwise the first three. -/
def PrnText (l : Str) (prn : Nat) : Prop :=
  ∃ t, slice l (if l.head? = some 'G' then 1 else 0) 3 = some t ∧ parseUInt 255 (trim t) = some prn ∧ 0 < prn

/-- Epoch and clock terms. -/
def ClockText {T : Type} (env : Env T) (l : Str) (t : T) (a0 a1 a2 : F64) : Prop :=
  ∃ rest y mo d h mi s w0 w1 w2 more Y Mo D H Mi S, dropB l 3 = some rest ∧
    words rest = y :: mo :: d :: h :: mi :: s :: w0 :: w1 :: w2 :: more ∧
    parseInt (2 ^ 63 - 1) y = some Y ∧ parseInt (2 ^ 63 - 1) mo = some Mo ∧ parseInt (2 ^ 63 - 1) d = some D ∧
    parseInt (2 ^ 63 - 1) h = some H ∧ parseInt (2 ^ 63 - 1) mi = some Mi ∧ Number s S ∧ Moment env Y Mo D H Mi S t ∧
    Number w0 a0 ∧ Number w1 a1 ∧ Number w2 a2

/-- The eight lines are a well-formed record and say `r`. -/
structure Reads {T : Type} (env : Env T) (l0 : Str) (body : List Str) (r : Rec T) : Prop where
  prn : PrnText l0 r.prn
  clock : ClockText env l0 r.toc r.af0 r.af1 r.af2
  line1 : ∃ l more, body[0]? = some l ∧ Values l (r.iode :: r.crs :: r.deltaN :: r.m0 :: more)
  line2 : ∃ l more, body[1]? = some l ∧ Values l (r.cuc :: r.e :: r.cus :: r.sqrtA :: more)
  line3 : ∃ l more, body[2]? = some l ∧ Values l (r.toe :: r.cic :: r.omega0 :: r.cis :: more)
  line4 : ∃ l more, body[3]? = some l ∧ Values l (r.i0 :: r.crc :: r.omega :: r.omegaDot :: more)
  line5 : ∃ l more, body[4]? = some l ∧ Values l (r.idot :: more)

/-- The well-formed records are kept, in order, and the others dropped. -/
inductive Kept {T : Type} (env : Env T) : List (Str × List Str) → List (Rec T) → Prop
  | nil : Kept env [] []
  | keep {b : Str × List Str} {bs : List (Str × List Str)} {r : Rec T} {rs : List (Rec T)} :
      Reads env b.1 b.2 r → Kept env bs rs → Kept env (b :: bs) (r :: rs)
  | drop {b : Str × List Str} {bs : List (Str × List Str)} {rs : List (Rec T)} :
      (¬ ∃ r, Reads env b.1 b.2 r) → Kept env bs rs → Kept env (b :: bs) rs

/-- The numbers of the epoch, where present, fit their integer types and the seconds are a number of this range. -/
def InRange (l : Str) : Prop :=
  ∀ rest y mo d h mi s more Y Mo D H Mi S, dropB l 3 = some rest → words rest = y :: mo :: d :: h :: mi :: s :: more →
    parseInt (2 ^ 63 - 1) y = some Y → parseInt (2 ^ 63 - 1) mo = some Mo → parseInt (2 ^ 63 - 1) d = some D →
    parseInt (2 ^ 63 - 1) h = some H → parseInt (2 ^ 63 - 1) mi = some Mi → Number s S →
    (-2 ^ 31 ≤ Y ∧ Y < 2 ^ 31) ∧ (0 ≤ Mo ∧ Mo < 2 ^ 32) ∧ (0 ≤ D ∧ D < 2 ^ 32) ∧ (0 ≤ H ∧ H < 2 ^ 32) ∧ (0 ≤ Mi ∧ Mi < 2 ^ 32) ∧
      ∃ q, S = .num q ∧ 0 ≤ q ∧ q < 2 ^ 32

/-- A body line made of numbers only has as many as the record needs. -/
def Enough (body : List Str) : Prop :=
  ∀ k < 5, ∀ l vs, body[k]? = some l → Values l vs → (if k < 4 then 4 else 1) ≤ vs.length

/-- Lines up to and including the first one that contains `END OF HEADER`. -/
def Header (ls header rest : List Str) : Prop :=
  ∃ (pre : List Str) (l : Str), header = pre ++ [l] ∧ ls = header ++ rest ∧ "END OF HEADER".toList <:+: l ∧ ∀ x ∈ pre, ¬ "END OF HEADER".toList <:+: x

end Spec
open Spec

variable {T : Type}

/-! ### Outcomes -/

theorem bind_ok_iff {α β : Type} {x : N α} {f : α → N β} {b : β} : x.bind f = .ok b ↔ ∃ a, x = .ok a ∧ f a = .ok b := by
  cases x <;> simp

theorem bind_no_panic {α β : Type} {x : N α} {f : α → N β} (hx : x ≠ .panic) (hf : ∀ a, x = .ok a → f a ≠ .panic) : x.bind f ≠ .panic := by
  cases x with
  | ok a => exact hf a rfl
  | err e => simp
  | panic => exact absurd rfl hx

theorem ofOption_ok {α : Type} {e : NavErr} {o : Option α} {a : α} : Res.ofOption e o = .ok a ↔ o = some a := by
  cases o <;> simp [Res.ofOption]

theorem ofOption_no_panic {α : Type} {e : NavErr} {o : Option α} : Res.ofOption e o ≠ .panic := by
  cases o <;> simp [Res.ofOption]

theorem orPanic_ok {α : Type} {o : Option α} {a : α} : (Res.orPanic o : N α) = .ok a ↔ o = some a := by
  cases o <;> simp [Res.orPanic]

theorem parseD_ok {no : Nat} {w : String} {s : Str} {v : F64} : parseD no w s = .ok v ↔ Number s v := by
  unfold parseD Number
  rw [ofOption_ok]
  rfl

theorem parseD_no_panic {no : Nat} {w : String} {s : Str} : parseD no w s ≠ .panic := ofOption_no_panic

theorem collect_ok {no : Nat} {ws : List Str} {vs : List F64} : collectFloats no ws = .ok vs ↔ List.Forall₂ Number ws vs := by
  induction ws generalizing vs with
  | nil =>
    simp only [collectFloats, Res.ok.injEq, List.forall₂_nil_left_iff]
    exact eq_comm
  | cons w t ih =>
    simp only [collectFloats, bind_ok_iff, parseD_ok, ih, Res.ok.injEq, List.forall₂_cons_left_iff]
    constructor
    · rintro ⟨v, hv, us, hus, rfl⟩
      exact ⟨v, us, hv, hus, rfl⟩
    · rintro ⟨v, us, hv, hus, rfl⟩
      exact ⟨v, hv, us, hus, rfl⟩

theorem collect_no_panic {no : Nat} {ws : List Str} : collectFloats no ws ≠ .panic := by
  induction ws with
  | nil => simp [collectFloats]
  | cons w t ih =>
    unfold collectFloats
    exact bind_no_panic parseD_no_panic (fun v _ => bind_no_panic ih (fun vs _ => by simp))

theorem body_ok {strict : Bool} {no k : Nat} {l : Str} {vs : List F64} :
    parseBody strict no k l = .ok vs ↔ Values l vs ∧ (strict = true → k ≤ vs.length) := by
  unfold parseBody Values
  rw [bind_ok_iff]
  constructor
  · rintro ⟨us, h1, h2⟩
    split at h2
    · cases h2
    · rename_i h
      cases h2
      refine ⟨collect_ok.1 h1, fun hs => ?_⟩
      by_contra hh
      exact h ⟨by omega, hs⟩
  · rintro ⟨h1, h2⟩
    refine ⟨vs, collect_ok.2 h1, ?_⟩
    rw [if_neg]
    rintro ⟨h3, h4⟩
    have := h2 h4
    omega

theorem body_no_panic {strict : Bool} {no k : Nat} {l : Str} : parseBody strict no k l ≠ .panic := by
  unfold parseBody
  refine bind_no_panic collect_no_panic (fun vs _ => ?_)
  split <;> simp

theorem wrapU32_of {z : Int} (h0 : 0 ≤ z) (h1 : z < 2 ^ 32) : wrapU32 z = z.toNat := by
  unfold wrapU32
  rw [Int.emod_eq_of_lt h0 h1]

theorem wrapI32_of {z : Int} (h0 : -2 ^ 31 ≤ z) (h1 : z < 2 ^ 31) : wrapI32 z = z := by
  unfold wrapI32
  rw [Int.emod_eq_of_lt (by omega) (by omega)]
  omega

theorem asU64_of {q : ℚ} (h0 : 0 ≤ q) (h1 : q < 2 ^ 32) : asU64 (.num q) = ⌊q⌋.toNat := by
  show min ⌊q⌋.toNat (2 ^ 64 - 1) = _
  have : ⌊q⌋ < 2 ^ 32 := by rw [Int.floor_lt]; exact_mod_cast h1
  omega

theorem nanosOf_of {q : ℚ} (h0 : 0 ≤ q) : nanosOf (.num q) ⌊q⌋.toNat = roundHalfUp ((q - (⌊q⌋ : ℚ)) * 10 ^ 9) := by
  have hf : (0 : Int) ≤ ⌊q⌋ := Int.floor_nonneg.2 h0
  have hc : ((⌊q⌋.toNat : ℕ) : ℚ) = (⌊q⌋ : ℚ) := by
    have : ((⌊q⌋.toNat : ℕ) : Int) = ⌊q⌋ := Int.toNat_of_nonneg hf
    exact_mod_cast congrArg (fun z : Int => (z : ℚ)) this
  unfold nanosOf
  simp only
  rw [hc]
  have h1 := Int.lt_floor_add_one q
  have h2 := Int.floor_le q
  have : roundHalfUp ((q - (⌊q⌋ : ℚ)) * 10 ^ 9) ≤ 10 ^ 9 := by
    unfold roundHalfUp
    have : ⌊(q - (⌊q⌋ : ℚ)) * 10 ^ 9 + 1 / 2⌋ < 10 ^ 9 + 1 := by
      rw [Int.floor_lt]
      push_cast
      nlinarith
    omega
  omega

/-- The wrapping casts do nothing in range. -/
theorem toc_ok {env : Env T} {y mo d h mi : Int} {q : ℚ} {no : Nat} {t : T} (hy : -2 ^ 31 ≤ y ∧ y < 2 ^ 31) (hmo : 0 ≤ mo ∧ mo < 2 ^ 32)
    (hd : 0 ≤ d ∧ d < 2 ^ 32) (hh : 0 ≤ h ∧ h < 2 ^ 32) (hmi : 0 ≤ mi ∧ mi < 2 ^ 32) (h0 : 0 ≤ q) (h1 : q < 2 ^ 32) :
    toc env y mo d h mi (.num q) no = .ok t ↔ Moment env y mo d h mi (.num q) t := by
  have hf : (0 : Int) ≤ ⌊q⌋ := Int.floor_nonneg.2 h0
  have hf' : ⌊q⌋ < 2 ^ 32 := by rw [Int.floor_lt]; exact_mod_cast h1
  unfold toc
  simp only [asU64_of h0 h1, nanosOf_of h0]
  rw [wrapI32_of hy.1 hy.2, wrapU32_of hmo.1 hmo.2, wrapU32_of hd.1 hd.2, wrapU32_of hh.1 hh.2, wrapU32_of hmi.1 hmi.2,
    wrapU32_of (by omega) (by omega)]
  simp only [Int.toNat_natCast]
  constructor
  · intro hyp
    split at hyp
    · rename_i hc
      rw [Bool.and_eq_true] at hc
      exact ⟨⟨_, q, rfl, h0, rfl, Int.toNat_of_nonneg hmo.1, Int.toNat_of_nonneg hd.1, Int.toNat_of_nonneg hh.1, Int.toNat_of_nonneg hmi.1,
        Int.toNat_of_nonneg hf, rfl, hc.1, hc.2, ofOption_ok.1 hyp⟩⟩
    · cases hyp
  · rintro ⟨c, q', hq, -, e1, e2, e3, e4, e5, e6, e7, e8, e9, e10⟩
    cases hq
    obtain ⟨cy, cm, cd, ch, cmi, cs, cn⟩ := c
    simp only at e1 e2 e3 e4 e5 e6 e7 e8 e9
    have f2 : mo.toNat = cm := by omega
    have f3 : d.toNat = cd := by omega
    have f4 : h.toNat = ch := by omega
    have f5 : mi.toNat = cmi := by omega
    have f6 : (⌊q⌋).toNat = cs := by omega
    rw [f2, f3, f4, f5, f6, ← e1, ← e7]
    rw [if_pos (by rw [e8, e9]; rfl)]
    exact ofOption_ok.2 e10

theorem toc_no_panic {env : Env T} {y mo d h mi : Int} {s : F64} {no : Nat} : toc env y mo d h mi s no ≠ .panic := by
  unfold toc
  simp only
  split
  · exact ofOption_no_panic
  · simp

theorem clock_ok {env : Env T} {l rest : Str} {no : Nat} {t : T} {a0 a1 a2 : F64} (hr : dropB l 3 = some rest) (hin : InRange l) :
    clockLine env no rest = .ok (t, a0, a1, a2) ↔ ClockText env l t a0 a1 a2 := by
  unfold clockLine
  constructor
  · intro h
    split at h
    · rename_i y mo d hh mi s w0 w1 w2 more hw
      simp only [bind_ok_iff, parseI64, ofOption_ok, parseD_ok] at h
      obtain ⟨Y, hY, Mo, hMo, D, hD, H, hH, Mi, hMi, S, hS, t', ht, b0, h0, b1, h1, b2, h2, heq⟩ := h
      cases heq
      obtain ⟨ry, rmo, rd, rh, rmi, q, rfl, rq0, rq1⟩ := hin rest y mo d hh mi s _ Y Mo D H Mi S hr hw hY hMo hD hH hMi hS
      exact ⟨rest, y, mo, d, hh, mi, s, w0, w1, w2, more, Y, Mo, D, H, Mi, _, hr, hw, hY, hMo, hD, hH, hMi, hS,
        (toc_ok ry rmo rd rh rmi rq0 rq1).1 ht, h0, h1, h2⟩
    · cases h
  · rintro ⟨rest', y, mo, d, hh, mi, s, w0, w1, w2, more, Y, Mo, D, H, Mi, S, hr', hw, hY, hMo, hD, hH, hMi, hS, hm, h0, h1, h2⟩
    rw [hr] at hr'
    cases hr'
    rw [hw]
    simp only [bind_ok_iff, parseI64, ofOption_ok, parseD_ok]
    obtain ⟨ry, rmo, rd, rh, rmi, q, rfl, rq0, rq1⟩ := hin rest y mo d hh mi s _ Y Mo D H Mi S hr hw hY hMo hD hH hMi hS
    exact ⟨Y, hY, Mo, hMo, D, hD, H, hH, Mi, hMi, _, hS, t, (toc_ok ry rmo rd rh rmi rq0 rq1).2 hm, a0, h0, a1, h1, a2, h2, rfl⟩

theorem clock_no_panic {env : Env T} {rest : Str} {no : Nat} : clockLine env no rest ≠ .panic := by
  unfold clockLine
  split
  · exact bind_no_panic ofOption_no_panic fun _ _ => bind_no_panic ofOption_no_panic fun _ _ => bind_no_panic ofOption_no_panic fun _ _ =>
      bind_no_panic ofOption_no_panic fun _ _ => bind_no_panic ofOption_no_panic fun _ _ => bind_no_panic parseD_no_panic fun _ _ =>
      bind_no_panic toc_no_panic fun _ _ => bind_no_panic parseD_no_panic fun _ _ => bind_no_panic parseD_no_panic fun _ _ =>
      bind_no_panic parseD_no_panic fun _ _ => by simp
  · simp

theorem prn_ok {l : Str} {no p : Nat} : parsePrn no l = .ok p ↔ PrnText l p := by
  unfold parsePrn PrnText
  rw [bind_ok_iff]
  have e : (if l.head? = some 'G' then slice l 1 3 else slice l 0 3) = slice l (if l.head? = some 'G' then 1 else 0) 3 := by split <;> rfl
  constructor
  · rintro ⟨t, h1, h2⟩
    rw [orPanic_ok, e] at h1
    refine ⟨t, h1, ?_⟩
    split at h2
    · rename_i p' hp
      split at h2
      · cases h2
        exact ⟨hp, by assumption⟩
      · cases h2
    · cases h2
  · rintro ⟨t, h1, h2, h3⟩
    refine ⟨t, orPanic_ok.2 (e ▸ h1), ?_⟩
    rw [h2]
    simp [h3]

theorem list4 {v : List F64} {a b c d : F64} (h0 : v[0]? = some a) (h1 : v[1]? = some b) (h2 : v[2]? = some c) (h3 : v[3]? = some d) :
    ∃ more, v = a :: b :: c :: d :: more := by
  match v with
  | [] => simp at h0
  | [_] => simp at h1
  | [_, _] => simp at h2
  | [_, _, _] => simp at h3
  | a' :: b' :: c' :: d' :: more =>
    simp at h0 h1 h2 h3
    exact ⟨more, by rw [h0, h1, h2, h3]⟩

theorem build_ok {prn : Nat} {clock : T × F64 × F64 × F64} {v1 v2 v3 v4 v5 : List F64} {r : Rec T} :
    build prn clock v1 v2 v3 v4 v5 = .ok r ↔ prn = r.prn ∧ clock = (r.toc, r.af0, r.af1, r.af2) ∧
      (∃ m, v1 = r.iode :: r.crs :: r.deltaN :: r.m0 :: m) ∧ (∃ m, v2 = r.cuc :: r.e :: r.cus :: r.sqrtA :: m) ∧
      (∃ m, v3 = r.toe :: r.cic :: r.omega0 :: r.cis :: m) ∧ (∃ m, v4 = r.i0 :: r.crc :: r.omega :: r.omegaDot :: m) ∧ (∃ m, v5 = r.idot :: m) := by
  constructor
  · intro h
    simp only [build, bind_ok_iff, idx, orPanic_ok] at h
    obtain ⟨a, ha, b, hb, c, hc, d, hd, e, he, f, hf, g, hg, h', hh, i, hi, j, hj, k, hk, l, hl, m, hm, n, hn, o, ho, p, hp, q, hq, heq⟩ := h
    cases heq
    refine ⟨rfl, rfl, list4 ha hb hc hd, list4 he hf hg hh, list4 hi hj hk hl, list4 hm hn ho hp, ?_⟩
    match v5 with
    | [] => simp at hq
    | x :: t =>
      simp at hq
      exact ⟨t, by rw [hq]⟩
  · rintro ⟨rfl, rfl, ⟨m1, rfl⟩, ⟨m2, rfl⟩, ⟨m3, rfl⟩, ⟨m4, rfl⟩, ⟨m5, rfl⟩⟩
    simp [build, idx, Res.orPanic]

theorem getD_body {body : List Str} (h : 7 ≤ body.length) {k : Nat} (hk : k < 7) {l : Str} : body[k]? = some l ↔ body.getD k [] = l := by
  rw [List.getD_eq_getElem?_getD, List.getElem?_eq_getElem (by omega)]
  simp

/-- A record is read, in either mode, exactly when its eight lines are well formed, and then as they say. -/
theorem rec_ok {env : Env T} {strict : Bool} {no : Nat} {l0 : Str} {body : List Str} {r : Rec T} (hb : 7 ≤ body.length) (hin : InRange l0) :
    parseRec env strict no l0 body = .ok r ↔ Reads env l0 body r := by
  unfold parseRec
  simp only [bind_ok_iff, prn_ok, orPanic_ok, body_ok, build_ok]
  constructor
  · rintro ⟨p, hp, rest, hr, ⟨t, a0, a1, a2⟩, hc, v1, ⟨h1, -⟩, v2, ⟨h2, -⟩, v3, ⟨h3, -⟩, v4, ⟨h4, -⟩, v5, ⟨h5, -⟩, rfl, hcl, ⟨m1, rfl⟩, ⟨m2, rfl⟩, ⟨m3, rfl⟩,
      ⟨m4, rfl⟩, ⟨m5, rfl⟩⟩
    cases hcl
    refine ⟨hp, (clock_ok hr hin).1 hc, ⟨_, m1, (getD_body hb (by omega)).2 rfl, h1⟩, ⟨_, m2, (getD_body hb (by omega)).2 rfl, h2⟩,
      ⟨_, m3, (getD_body hb (by omega)).2 rfl, h3⟩, ⟨_, m4, (getD_body hb (by omega)).2 rfl, h4⟩, ⟨_, m5, (getD_body hb (by omega)).2 rfl, h5⟩⟩
  · rintro ⟨hp, hc, ⟨l1, m1, e1, h1⟩, ⟨l2, m2, e2, h2⟩, ⟨l3, m3, e3, h3⟩, ⟨l4, m4, e4, h4⟩, ⟨l5, m5, e5, h5⟩⟩
    have hr : ∃ rest, dropB l0 3 = some rest := by
      obtain ⟨rest, _, _, _, _, _, _, _, _, _, _, _, _, _, _, _, _, hr, _⟩ := hc
      exact ⟨rest, hr⟩
    obtain ⟨rest, hr⟩ := hr
    rw [getD_body hb (by omega)] at e1 e2 e3 e4 e5
    rw [e1, e2, e3, e4, e5]
    exact ⟨r.prn, hp, rest, hr, _, (clock_ok hr hin).2 hc, _, ⟨h1, by simp⟩, _, ⟨h2, by simp⟩, _, ⟨h3, by simp⟩, _, ⟨h4, by simp⟩, _, ⟨h5, by simp⟩,
      rfl, rfl, ⟨m1, rfl⟩, ⟨m2, rfl⟩, ⟨m3, rfl⟩, ⟨m4, rfl⟩, ⟨m5, rfl⟩⟩

theorem build_no_panic {prn : Nat} {clock : T × F64 × F64 × F64} {v1 v2 v3 v4 v5 : List F64} (h1 : 4 ≤ v1.length) (h2 : 4 ≤ v2.length)
    (h3 : 4 ≤ v3.length) (h4 : 4 ≤ v4.length) (h5 : 1 ≤ v5.length) : build prn clock v1 v2 v3 v4 v5 ≠ .panic := by
  match v1, v2, v3, v4, v5, h1, h2, h3, h4, h5 with
  | _ :: _ :: _ :: _ :: _, _ :: _ :: _ :: _ :: _, _ :: _ :: _ :: _ :: _, _ :: _ :: _ :: _ :: _, _ :: _, _, _, _, _, _ =>
    simp [build, idx, Res.orPanic]

theorem slices_ascii {l : Str} (ha : isAscii l) (hl : 4 ≤ blen l) : (slice l 1 3).isSome ∧ (slice l 0 3).isSome ∧ (dropB l 3).isSome := by
  rw [blen_ascii ha] at hl
  rw [slice_ascii ha (by omega) (by omega), slice_ascii ha (by omega) (by omega), dropB_ascii ha, if_pos (by omega)]
  simp

/-- ASCII first lines: no slicing panics, and a short line cannot reach the indexing unless the mode is permissive. -/
theorem rec_no_panic {env : Env T} {strict : Bool} {no : Nat} {l0 : Str} {body : List Str} (hb : 7 ≤ body.length) (ha : isAscii l0) (hl : 4 ≤ blen l0)
    (hen : strict = true ∨ Enough body) : parseRec env strict no l0 body ≠ .panic := by
  obtain ⟨s1, s2, s3⟩ := slices_ascii ha hl
  obtain ⟨x1, s1⟩ := Option.isSome_iff_exists.1 s1
  obtain ⟨x2, s2⟩ := Option.isSome_iff_exists.1 s2
  obtain ⟨x3, s3⟩ := Option.isSome_iff_exists.1 s3
  have hprn : parsePrn no l0 ≠ .panic := by
    unfold parsePrn
    refine bind_no_panic ?_ ?_
    · rw [s1, s2]
      split <;> simp [Res.orPanic]
    · intro t _
      split
      · split <;> simp
      · simp
  have hlen : ∀ k < 5, ∀ no vs, parseBody strict no (if k < 4 then 4 else 1) (body.getD k []) = .ok vs → (if k < 4 then 4 else 1) ≤ vs.length := by
    intro k hk no vs h
    rw [body_ok] at h
    rcases hen with h' | h'
    · exact h.2 h'
    · exact h' k hk _ vs ((getD_body hb (by omega)).2 rfl) h.1
  unfold parseRec
  rw [s3]
  refine bind_no_panic hprn fun p _ => bind_no_panic (by simp [Res.orPanic]) fun rest _ => bind_no_panic clock_no_panic fun c _ =>
    bind_no_panic body_no_panic fun v1 e1 => bind_no_panic body_no_panic fun v2 e2 => bind_no_panic body_no_panic fun v3 e3 =>
    bind_no_panic body_no_panic fun v4 e4 => bind_no_panic body_no_panic fun v5 e5 => build_no_panic ?_ ?_ ?_ ?_ ?_
  · exact hlen 0 (by omega) _ v1 e1
  · exact hlen 1 (by omega) _ v2 e2
  · exact hlen 2 (by omega) _ v3 e3
  · exact hlen 3 (by omega) _ v4 e4
  · exact hlen 4 (by omega) _ v5 e5

/-! ### The loop -/

theorem starts_iff {l : Str} : starts l = true ↔ Begins l := by
  unfold starts Begins
  cases l with
  | nil => simp [blen]
  | cons c t =>
    simp only [List.head?_cons, Option.map_some, Option.getD_some, Option.some.injEq, Bool.and_eq_true, Bool.not_eq_true', decide_eq_false_iff_not, Bool.or_eq_true,
      decide_eq_true_eq, not_lt]
    constructor
    · rintro ⟨h1, h2⟩
      exact ⟨h1, c, t, rfl, h2⟩
    · rintro ⟨h1, c', t', h3, h2⟩
      cases h3
      exact ⟨h1, h2⟩

theorem loop_skip (env : Env T) (strict : Bool) (pre rest : List Str) (no : Nat) :
    loop env strict pre.length no (pre ++ rest) = loop env strict 0 (no + pre.length) rest := by
  induction pre generalizing no with
  | nil => rfl
  | cons l t ih =>
    rw [List.length_cons, List.cons_append, loop, ih]
    congr 1
    omega

theorem body_take {strict : Bool} {env : Env T} {no : Nat} {l0 : Str} {body rest : List Str} (h : 5 ≤ body.length) :
    parseRec env strict no l0 (body ++ rest) = parseRec env strict no l0 body := by
  have e : ∀ k < 5, (body ++ rest).getD k [] = body.getD k [] := by
    intro k hk
    rw [List.getD_eq_getElem?_getD, List.getD_eq_getElem?_getD, List.getElem?_append_left (by omega)]
  unfold parseRec
  rw [e 0 (by omega), e 1 (by omega), e 2 (by omega), e 3 (by omega), e 4 (by omega)]

/-- Every list of lines is cut in exactly one way. -/
theorem split_exists (ls : List Str) : ∃ bs t, Split ls bs t := by
  induction h : ls.length using Nat.strong_induction_on generalizing ls with
  | _ n ih =>
    cases ls with
    | nil => exact ⟨[], false, .nil⟩
    | cons l rest =>
      by_cases hb : Begins l
      · by_cases hl : rest.length < 7
        · exact ⟨[], true, .cut hb hl⟩
        · obtain ⟨bs, t, hs⟩ := ih (rest.drop 7).length (by simp at h ⊢; omega) (rest.drop 7) rfl
          refine ⟨(l, rest.take 7) :: bs, t, ?_⟩
          have := Split.record (l := l) (body := rest.take 7) hb (by simp; omega) hs
          rwa [List.take_append_drop] at this
      · obtain ⟨bs, t, hs⟩ := ih rest.length (by simp at h; omega) rest rfl
        exact ⟨bs, t, .other hb hs⟩

theorem loop_other {env : Env T} {strict : Bool} {no : Nat} {l : Str} {rest : List Str} (h : ¬ Begins l) :
    loop env strict 0 no (l :: rest) = loop env strict 0 (no + 1) rest := by
  rw [loop, if_pos]
  rw [← starts_iff] at h
  simpa using h

theorem loop_cut {env : Env T} {strict : Bool} {no : Nat} {l : Str} {rest : List Str} (h : Begins l) (hl : rest.length < 7) :
    loop env strict 0 no (l :: rest) = if strict then .err (.truncated no) else .ok [] := by
  rw [loop, if_neg (by rw [starts_iff.2 h]; simp), if_pos hl]

theorem loop_record {env : Env T} {strict : Bool} {no : Nat} {l : Str} {body rest : List Str} (h : Begins l) (hb : body.length = 7) :
    loop env strict 0 no (l :: (body ++ rest)) = match parseRec env strict no l body with
      | .ok r => (loop env strict 0 (no + 8) rest).bind (fun rs => .ok (r :: rs))
      | .err e => if strict then .err e else loop env strict 0 (no + 8) rest
      | .panic => .panic := by
  rw [loop, if_neg (by rw [starts_iff.2 h]; simp), if_neg (by simp; omega), body_take (by omega)]
  have := loop_skip env strict body rest (no + 1)
  rw [hb, show no + 1 + 7 = no + 8 by omega] at this
  rw [this]
  cases parseRec env strict no l body <;> rfl

/-- Permissive: never an error. -/
theorem loop_no_error {env : Env T} {ls : List Str} (no : Nat) : ∀ e : NavErr, loop env false 0 no ls ≠ .err e := by
  intro e
  obtain ⟨bs, t, h⟩ := split_exists ls
  induction h generalizing no e with
  | nil => simp [loop]
  | other hb _ ih => rw [loop_other hb]; exact ih _ _
  | cut hb hl => rw [loop_cut hb hl]; simp
  | record hb hl hs ih =>
    rw [loop_record hb hl]
    split
    · cases hh : loop env false 0 (no + 8) _ with
      | ok rs => simp
      | err e' => exact absurd hh (ih (no + 8) e')
      | panic => simp
    · exact ih _ _
    · simp

/-- Permissive mode keeps the well-formed records. -/
theorem loop_permissive {env : Env T} {ls : List Str} {bs : List (Str × List Str)} {t : Bool} (h : Split ls bs t)
    (hin : ∀ b ∈ bs, isAscii b.1 ∧ InRange b.1 ∧ Enough b.2) (no : Nat) : ∃ rs, loop env false 0 no ls = .ok rs ∧ Kept env bs rs := by
  induction h generalizing no with
  | nil => exact ⟨[], rfl, .nil⟩
  | other hb _ ih => rw [loop_other hb]; exact ih hin _
  | cut hb hl => rw [loop_cut hb hl]; exact ⟨[], rfl, .nil⟩
  | record hb hl hs ih =>
    rename_i l body rest bs t
    rw [loop_record hb hl]
    obtain ⟨h1, h2, h3⟩ := hin _ List.mem_cons_self
    obtain ⟨rs, e, hk⟩ := ih (fun b hb => hin b (List.mem_cons_of_mem _ hb)) (no + 8)
    rw [e]
    cases hr : parseRec env false no l body with
    | ok r => exact ⟨r :: rs, rfl, .keep ((rec_ok (by simp only; omega) h2).1 hr) hk⟩
    | err e' =>
      refine ⟨rs, rfl, .drop ?_ hk⟩
      rintro ⟨r, h⟩
      rw [(rec_ok (by simp only; omega) h2).2 h] at hr
      cases hr
    | panic => exact absurd hr (rec_no_panic (by omega) h1 hb.1 (.inr h3))

/-- Strict mode accepts exactly the texts without a malformed record. -/
theorem loop_strict {env : Env T} {ls : List Str} {bs : List (Str × List Str)} {t : Bool} (h : Split ls bs t)
    (hin : ∀ b ∈ bs, InRange b.1) (no : Nat) (rs : List (Rec T)) :
    loop env true 0 no ls = .ok rs ↔ t = false ∧ List.Forall₂ (fun b r => Reads env b.1 b.2 r) bs rs := by
  induction h generalizing no rs with
  | nil =>
    simp only [loop, Res.ok.injEq, true_and, List.forall₂_nil_left_iff]
    exact eq_comm
  | other hb _ ih => rw [loop_other hb]; exact ih hin _ _
  | cut hb hl => rw [loop_cut hb hl]; simp
  | record hb hl hs ih =>
    rename_i l body rest bs t
    rw [loop_record hb hl]
    have h2 := hin _ List.mem_cons_self
    have ih' := ih (fun b hb => hin b (List.mem_cons_of_mem _ hb)) (no + 8)
    constructor
    · intro h
      cases hr : parseRec env true no l body with
      | ok r =>
        rw [hr] at h
        simp only at h
        rw [bind_ok_iff] at h
        obtain ⟨rs', h3, h4⟩ := h
        cases h4
        obtain ⟨h5, h6⟩ := (ih' rs').1 h3
        exact ⟨h5, .cons ((rec_ok (by simp only; omega) h2).1 hr) h6⟩
      | err e => rw [hr] at h; simp at h
      | panic => rw [hr] at h; simp at h
    · rintro ⟨h5, h6⟩
      cases h6 with
      | cons h7 h8 =>
        rename_i r rs'
        rw [(rec_ok (no := no) (strict := true) (by simp only; omega) h2).2 h7]
        simp only
        rw [(ih' rs').2 ⟨h5, h8⟩]
        rfl

theorem loop_strict_no_panic {env : Env T} {ls : List Str} (hin : ∀ l ∈ ls, isAscii l) (no : Nat) : loop env true 0 no ls ≠ .panic := by
  obtain ⟨bs, t, h⟩ := split_exists ls
  induction h generalizing no with
  | nil => simp [loop]
  | other hb _ ih => rw [loop_other hb]; exact ih (fun l hl => hin l (List.mem_cons_of_mem _ hl)) _
  | cut hb hl => rw [loop_cut hb hl]; simp
  | record hb hl hs ih =>
    rename_i l body rest bs t
    rw [loop_record hb hl]
    have := ih (fun l hl => hin l (List.mem_cons_of_mem _ (List.mem_append_right _ hl))) (no + 8)
    cases hr : parseRec env true no l body with
    | ok r => exact bind_no_panic this (fun _ _ => by simp)
    | err e => simp
    | panic => exact absurd hr (rec_no_panic (by omega) (hin _ List.mem_cons_self) hb.1 (.inl rfl))

theorem rec_mode {env : Env T} {no : Nat} {l0 : Str} {body : List Str} {r : Rec T} (h : parseRec env true no l0 body = .ok r) :
    parseRec env false no l0 body = .ok r := by
  unfold parseRec at h ⊢
  simp only [bind_ok_iff, body_ok] at h ⊢
  obtain ⟨p, hp, rest, hr, c, hc, v1, ⟨h1, -⟩, v2, ⟨h2, -⟩, v3, ⟨h3, -⟩, v4, ⟨h4, -⟩, v5, ⟨h5, -⟩, hb⟩ := h
  exact ⟨p, hp, rest, hr, c, hc, v1, ⟨h1, by simp⟩, v2, ⟨h2, by simp⟩, v3, ⟨h3, by simp⟩, v4, ⟨h4, by simp⟩, v5, ⟨h5, by simp⟩, hb⟩

/-- What strict mode accepts, permissive mode reads alike. -/
theorem loop_mode {env : Env T} {ls : List Str} (no : Nat) (rs : List (Rec T)) (hok : loop env true 0 no ls = .ok rs) : loop env false 0 no ls = .ok rs := by
  obtain ⟨bs, t, h⟩ := split_exists ls
  induction h generalizing no rs with
  | nil => exact hok
  | other hb _ ih => rw [loop_other hb] at hok ⊢; exact ih _ _ hok
  | cut hb hl => rw [loop_cut hb hl] at hok; simp at hok
  | record hb hl hs ih =>
    rename_i l body rest bs t
    rw [loop_record hb hl] at hok ⊢
    cases hr : parseRec env true no l body with
    | ok r =>
      rw [hr] at hok
      rw [rec_mode hr]
      simp only at hok ⊢
      rw [bind_ok_iff] at hok ⊢
      obtain ⟨rs', h3, h4⟩ := hok
      exact ⟨rs', ih _ _ h3, h4⟩
    | err e => rw [hr] at hok; simp at hok
    | panic => rw [hr] at hok; simp at hok

/-! ### The header -/

theorem contains_iff {p s : Str} : containsStr p s = true ↔ p <:+: s := by
  induction s with
  | nil =>
    simp only [containsStr, List.isPrefixOf_iff_prefix]
    simp
  | cons c t ih =>
    simp only [containsStr, Bool.or_eq_true, ih, List.isPrefixOf_iff_prefix]
    exact List.infix_cons_iff.symm

theorem afterHeader_some {ls : List Str} {no m : Nat} {rest : List Str} (h : afterHeader no ls = some (m, rest)) : ∃ header, Header ls header rest := by
  induction ls generalizing no with
  | nil => simp [afterHeader] at h
  | cons l t ih =>
    rw [afterHeader] at h
    split at h
    · rename_i hc
      cases h
      exact ⟨[l], [], l, rfl, rfl, contains_iff.1 hc, by simp⟩
    · rename_i hc
      obtain ⟨header, pre, x, h1, h2, h3, h4⟩ := ih h
      refine ⟨l :: header, l :: pre, x, by rw [h1]; rfl, by rw [h2]; rfl, h3, ?_⟩
      intro y hy
      rcases List.mem_cons.1 hy with rfl | hy
      · rwa [← contains_iff]
      · exact h4 y hy

theorem afterHeader_of {ls header rest : List Str} (no : Nat) (h : Header ls header rest) : ∃ m, afterHeader no ls = some (m, rest) := by
  obtain ⟨pre, x, h1, h2, h3, h4⟩ := h
  subst h1 h2
  induction pre generalizing no with
  | nil =>
    exact ⟨no + 1, by rw [List.nil_append, List.singleton_append, afterHeader, if_pos (contains_iff.2 h3)]⟩
  | cons l t ih =>
    obtain ⟨m, hm⟩ := ih (no + 1) (fun y hy => h4 y (List.mem_cons_of_mem _ hy))
    refine ⟨m, ?_⟩
    rw [List.cons_append, List.cons_append, afterHeader, if_neg, hm]
    rw [contains_iff]
    exact h4 l List.mem_cons_self

end Verif.Rinex
