import Verif.Tle.Lines

namespace Verif.Tle
open Verif.Text

/-- Ranges that the columns of a TLE can hold. -/
structure Guards (t : TLE ℚ) : Prop where
  norad : t.norad < 340000
  intl_ascii : ∀ c ∈ t.intl, c.toNat < 128
  intl_len : t.intl.length ≤ 8
  intl_tight : trim t.intl = t.intl
  year : 1957 ≤ t.epoch.year ∧ t.epoch.year ≤ 2056
  ordinal : 1 ≤ t.epoch.ordinal ∧ t.epoch.ordinal ≤ yearLen t.epoch.year
  nanos : t.epoch.nanos < 86400000000000
  nDot : |t.nDot| ≤ 99999999 / 10 ^ 8
  nDdot : Spec.AssumedFits t.nDdot
  elset : t.elset ≤ 9999
  rev : t.rev ≤ 99999
  inclination : -999999 / 10000 ≤ t.inclination ∧ t.inclination ≤ 9999999 / 10000
  raan : -999999 / 10000 ≤ t.raan ∧ t.raan ≤ 9999999 / 10000
  ecc : 0 ≤ t.ecc ∧ t.ecc ≤ 9999999 / 10 ^ 7
  argp : -999999 / 10000 ≤ t.argp ∧ t.argp ≤ 9999999 / 10000
  meanAnomaly : -999999 / 10000 ≤ t.meanAnomaly ∧ t.meanAnomaly ≤ 9999999 / 10000
  meanMotion : -999999999 / 100000000 ≤ t.meanMotion ∧ t.meanMotion ≤ 9999999999 / 100000000

/-- Hundred-millionths of a day printed for the epoch. -/
def epochGrid (t : TLE ℚ) : ℕ := roundHalfEven (dayFull t.epoch * 10 ^ 8)

theorem roundHalfUp_le {x : ℚ} {n : ℕ} (h : x ≤ (n : ℚ)) : roundHalfUp x ≤ n := by
  unfold roundHalfUp
  have e2 : ⌊x + 1 / 2⌋ < (n : ℤ) + 1 := Int.floor_lt.mpr (by push_cast; linarith)
  omega

theorem epochGrid_bounds {t : TLE ℚ} (g : Guards t) :
    10 ^ 8 ≤ epochGrid t ∧ epochGrid t ≤ (yearLen t.epoch.year + 1) * 10 ^ 8 := by
  have hn : (t.epoch.nanos : ℚ) < 86400000000000 := by exact_mod_cast g.nanos
  have hn0 : (0 : ℚ) ≤ t.epoch.nanos := Nat.cast_nonneg _
  have hf : 0 ≤ (t.epoch.nanos : ℚ) / 86400000000000 ∧ (t.epoch.nanos : ℚ) / 86400000000000 < 1 :=
    ⟨by positivity, by rw [div_lt_one (by norm_num)]; exact hn⟩
  have ho1 : (1 : ℚ) ≤ t.epoch.ordinal := by exact_mod_cast g.ordinal.1
  have ho2 : (t.epoch.ordinal : ℚ) ≤ yearLen t.epoch.year := by exact_mod_cast g.ordinal.2
  have hs := roundHalfEven_spec (dayFull t.epoch * 10 ^ 8) (by rw [dayFull_eq]; positivity)
  rw [dayFull_eq] at hs
  unfold epochGrid
  rw [dayFull_eq]
  generalize roundHalfEven ((t.epoch.ordinal + (t.epoch.nanos : ℚ) / 86400000000000) * 10 ^ 8) = k at *
  rw [abs_le] at hs
  constructor
  · have : (10 : ℚ) ^ 8 - 1 < k := by linarith [hs.1, hs.2, hf.1]
    have h' : ((10 ^ 8 - 1 : ℕ) : ℚ) < k := by push_cast; linarith
    have := Nat.cast_lt.mp h'
    omega
  · have : (k : ℚ) < (yearLen t.epoch.year + 1) * 10 ^ 8 + 1 := by linarith [hs.1, hs.2, hf.2]
    have h' : (k : ℚ) < (((yearLen t.epoch.year + 1) * 10 ^ 8 + 1 : ℕ) : ℚ) := by push_cast; linarith
    have := Nat.cast_lt.mp h'
    omega

theorem yearLen_le (y : ℤ) : yearLen y ≤ 366 := by unfold yearLen; split <;> omega

theorem day_length {t : TLE ℚ} (g : Guards t) : (fmtZero 12 8 (dayFull t.epoch)).length = 12 := by
  unfold fmtZero
  rw [padLeft_length]
  have h := (epochGrid_bounds g).2
  have hy := yearLen_le t.epoch.year
  have := fixedStr_length_le 8 2 (epochGrid t) (by
    calc epochGrid t ≤ (366 + 1) * 10 ^ 8 := le_trans h (Nat.mul_le_mul_right _ (by omega))
      _ < _ := by norm_num)
  unfold epochGrid at this
  omega

/-- The two-digit year written. -/
def yy2 (t : TLE ℚ) : ℕ := ((t.epoch.year.tmod 100 + 100).tmod 100).toNat

theorem yy2_spec {t : TLE ℚ} (g : Guards t) : yy2 t < 100 ∧ expandYear (yy2 t : ℤ) = t.epoch.year := by
  have := g.year
  unfold yy2
  have h1 : t.epoch.year.tmod 100 = t.epoch.year % 100 := Int.tmod_eq_emod_of_nonneg (by omega)
  have h2 : (t.epoch.year % 100 + 100).tmod 100 = (t.epoch.year % 100 + 100) % 100 :=
    Int.tmod_eq_emod_of_nonneg (by omega)
  rw [h1, h2]
  unfold expandYear
  constructor
  · omega
  · split <;> omega

theorem catalog {n : ℕ} (h : n < 340000) : ∃ cat, formatAlpha5 n = .ok cat ∧ cat.length = 5 ∧
    isAscii cat ∧ parseSat cat = .ok n := by
  obtain ⟨c, hc, hf⟩ := formatAlpha5_spec h
  obtain ⟨c', h1, hasc, _⟩ := alphabet_reader ⟨n / 10000, by omega⟩
  rw [hc] at h1; cases h1
  refine ⟨_, hf, by simp [digitsW_length], ?_, parseSat_field h hc⟩
  rw [isAscii_cons]
  exact ⟨hasc, all_digit_ascii (digitsW_digits 4 _).1⟩

theorem tight_of_trim {s : Str} (h : trim s = s) : Tight s := by
  -- a fixed point of `trim` starts and ends with a non-blank
  have hd : ∀ (u : Str) c, (u.dropWhile isWs).head? = some c → isWs c = false := by
    intro u c hc
    cases hx : u.dropWhile isWs with
    | nil => rw [hx] at hc; simp at hc
    | cons a as =>
      rw [hx] at hc; simp at hc; subst hc
      have := List.head_dropWhile_not isWs (l := u) (by rw [hx]; simp)
      simpa [hx] using this
  have hlast : ∀ c, s.getLast? = some c → isWs c = false := by
    intro c hc
    rw [← h] at hc
    unfold trim trimEnd at hc
    rw [List.getLast?_reverse] at hc
    exact hd _ c hc
  refine ⟨?_, hlast⟩
  intro c hc
  -- `trimStart s` is at least as long as `s`, so nothing was dropped
  have hlen : (trimStart s).length ≥ s.length := by
    have h1 : (trim s).length ≤ (trimStart s).length := by
      unfold trim trimEnd
      rw [List.length_reverse]
      exact le_trans (List.dropWhile_suffix isWs).length_le (by rw [List.length_reverse])
    rw [h] at h1; exact h1
  have hsuf : trimStart s <:+ s := List.dropWhile_suffix isWs
  have heq : trimStart s = s := hsuf.eq_of_length_le hlen
  rw [← heq] at hc
  exact hd s c hc

theorem castU_small {b n : ℕ} (h : n < 2 ^ b) : castU b (n : ℤ) = n := by
  unfold castU
  have : (n : ℤ) % 2 ^ b = n := Int.emod_eq_of_lt (by omega) (by exact_mod_cast h)
  rw [this]; rfl

theorem eccScaled_lt {t : TLE ℚ} (g : Guards t) : eccScaled t.ecc < 10 ^ 7 := by
  unfold eccScaled
  rw [if_neg (not_lt.mpr g.ecc.1)]
  have := roundHalfUp_le (x := t.ecc * 10 ^ 7) (n := 9999999) (by
    have := g.ecc.2
    push_cast; rw [le_div_iff₀ (by norm_num)] at this; linarith)
  omega

/-- The element set read back, before the epoch is known. -/
def readBack (t : TLE ℚ) (e : DateTime) : TLE F64 :=
  { norad := t.norad, classification := t.classification, intl := t.intl, epoch := e,
    nDot := .num (signedValue t.nDot), nDdot := assumedValue t.nDdot, bstar := assumedValue t.bstar,
    elset := t.elset, rev := t.rev, inclination := .num (fixedValue 4 t.inclination),
    raan := .num (fixedValue 4 t.raan), ecc := (eccScaled t.ecc : ℚ) / 10 ^ 7,
    argp := .num (fixedValue 4 t.argp), meanAnomaly := .num (fixedValue 4 t.meanAnomaly),
    meanMotion := .num (fixedValue 8 t.meanMotion) }

theorem line1_facts {t : TLE ℚ} (g : Guards t) {cat : Str} (hcl : cat.length = 5) (hca : isAscii cat) :
    isAscii (line1Body t cat) ∧ (line1Body t cat).length = 60 + (formatAssumed t.bstar).length := by
  have hnd := formatSigned_length (v := t.nDot) (by
    have := roundHalfUp_le (x := |t.nDot| * 10 ^ 8) (n := 99999999) (by
      have := g.nDot
      rw [le_div_iff₀ (by norm_num)] at this
      push_cast; linarith)
    omega)
  have hndd := (formatAssumed_length _).mpr g.nDdot
  have hel : (padLeft ' ' 4 (natStr t.elset)).length = 4 := by
    rw [padLeft_length]
    have := natStr_length_le 3 t.elset (by have := g.elset; omega)
    omega
  have hyy : (padLeft '0' 2 (natStr (yy2 t))).length = 2 := by
    rw [padLeft_length]
    have := natStr_length_le 1 (yy2 t) (by have := (yy2_spec g).1; omega)
    omega
  have hintl : (padRight 8 t.intl).length = 8 := by
    rw [padRight_length]; have := g.intl_len; omega
  have hday := day_length g
  unfold yy2 at hyy
  constructor
  · unfold line1Body
    simp only [isAscii_append, isAscii_cons, List.cons_append]
    have hel := padLeft_ascii (natStr_ascii t.elset) ' ' (by decide) 4
    have hin := padRight_ascii g.intl_ascii 8
    have hcl := asChar_ascii t.classification
    have hyy := padZero_ascii 2 ((t.epoch.year.tmod 100 + 100).tmod 100).toNat
    have hda := fmtZero_ascii 12 8 (dayFull t.epoch)
    have h1 := formatSigned_ascii t.nDot
    have h2 := formatAssumed_ascii t.nDdot
    have h3 := formatAssumed_ascii t.bstar
    have k1 : '1'.toNat < 128 := by decide
    have k2 : ' '.toNat < 128 := by decide
    have k3 : '0'.toNat < 128 := by decide
    simp only [hel, hin, hcl, hyy, hda, h1, h2, h3, hca, k1, k2, k3, and_self]
  · unfold line1Body
    simp only [List.length_append, List.length_cons, hcl, hnd, hndd, hel, hyy, hintl, hday]
    omega

theorem line2_facts {t : TLE ℚ} (g : Guards t) {cat : Str} (hcl : cat.length = 5) (hca : isAscii cat) :
    isAscii (line2Body t cat) ∧ (line2Body t cat).length = 68 := by
  have h1 := angle_length g.inclination.1 g.inclination.2
  have h2 := angle_length g.raan.1 g.raan.2
  have h3 := angle_length g.argp.1 g.argp.2
  have h4 := angle_length g.meanAnomaly.1 g.meanAnomaly.2
  have h5 := motion_length g.meanMotion.1 g.meanMotion.2
  have h6 : (padLeft '0' 7 (natStr (eccScaled t.ecc))).length = 7 := by
    rw [padLeft_length]
    have := natStr_length_le 6 _ (eccScaled_lt g)
    omega
  have h7 : (padLeft ' ' 5 (natStr t.rev)).length = 5 := by
    rw [padLeft_length]
    have := natStr_length_le 4 t.rev (by have := g.rev; omega)
    omega
  constructor
  · unfold line2Body
    simp only [isAscii_append, isAscii_cons, List.cons_append]
    have hp := fun (w p : ℕ) (q : ℚ) => padLeft_ascii (fmtFixed_ascii p q) ' ' (by decide) w
    have hrv := padLeft_ascii (natStr_ascii t.rev) ' ' (by decide) 5
    have hec := padZero_ascii 7 (eccScaled t.ecc)
    have k1 : '2'.toNat < 128 := by decide
    have k2 : ' '.toNat < 128 := by decide
    simp only [hp, hrv, hec, hca, k1, k2, and_self]
  · unfold line2Body
    simp only [List.length_append, List.length_cons, hcl, h1, h2, h3, h4, h5, h6, h7]

theorem parse_written {t : TLE ℚ} (g : Guards t) (hb : Spec.AssumedFits t.bstar)
    (utcOk : DateTime → Bool) : ∃ l1 l2, formatTle t = .ok (l1, l2) ∧
      (isAscii l1 ∧ l1.length = 69 ∧ validateChecksum l1 = .ok ()) ∧
      (isAscii l2 ∧ l2.length = 69 ∧ validateChecksum l2 = .ok ()) ∧
      parseTle utcOk l1 l2 = (epochFromYearDoy utcOk t.epoch.year (.num ((epochGrid t : ℚ) / 10 ^ 8))).bind
        (fun e => .ok (readBack t e)) := by
  obtain ⟨cat, hf, hcl, hca, hps⟩ := catalog g.norad
  obtain ⟨a1, b1⟩ := line1_facts g hcl hca
  obtain ⟨a2, b2⟩ := line2_facts g hcl hca
  rw [(formatAssumed_length _).mpr hb] at b1
  obtain ⟨c1, d1, e1⟩ := withChecksum_valid a1 b1
  obtain ⟨c2, d2, e2⟩ := withChecksum_valid a2 b2
  refine ⟨withChecksum (line1Body t cat), withChecksum (line2Body t cat), by unfold formatTle; rw [hf]; rfl,
    ⟨c1, by rw [← blen_ascii c1]; exact d1, e1⟩, ⟨c2, by rw [← blen_ascii c2]; exact d2, e2⟩, ?_⟩
  have hndr : roundHalfUp (|t.nDot| * 10 ^ 8) < 10 ^ 8 := by
    have := roundHalfUp_le (x := |t.nDot| * 10 ^ 8) (n := 99999999) (by
      have := g.nDot
      rw [le_div_iff₀ (by norm_num)] at this
      push_cast; linarith)
    omega
  have hnd := formatSigned_length hndr
  have hndd := (formatAssumed_length _).mpr g.nDdot
  have hbs := (formatAssumed_length _).mpr hb
  have hel : (padLeft ' ' 4 (natStr t.elset)).length = 4 := by
    rw [padLeft_length]
    have := natStr_length_le 3 t.elset (by have := g.elset; omega)
    omega
  have hyy : (padLeft '0' 2 (natStr (yy2 t))).length = 2 := by
    rw [padLeft_length]
    have := natStr_length_le 1 (yy2 t) (by have := (yy2_spec g).1; omega)
    omega
  have hintl : (padRight 8 t.intl).length = 8 := by
    rw [padRight_length]; have := g.intl_len; omega
  have h6 : (padLeft '0' 7 (natStr (eccScaled t.ecc))).length = 7 := by
    rw [padLeft_length]
    have := natStr_length_le 6 _ (eccScaled_lt g)
    omega
  have h7 : (padLeft ' ' 5 (natStr t.rev)).length = 5 := by
    rw [padLeft_length]
    have := natStr_length_le 4 t.rev (by have := g.rev; omega)
    omega
  obtain ⟨p0, p1, p2, p3, p4, p5, p6, p7, p8, p9⟩ := cols1 (cs := natStr (computeChecksum (line1Body t cat)))
    (cls := t.classification.asChar) hcl hintl hyy (day_length g) hnd hndd hbs hel
    (L := withChecksum (line1Body t cat)) rfl c1
  obtain ⟨q0, q1, q2, q3, q4, q5, q6, q7, q8⟩ := cols2 (cs := natStr (computeChecksum (line2Body t cat)))
    hcl (angle_length g.inclination.1 g.inclination.2) (angle_length g.raan.1 g.raan.2) h6
    (angle_length g.argp.1 g.argp.2) (angle_length g.meanAnomaly.1 g.meanAnomaly.2)
    (motion_length g.meanMotion.1 g.meanMotion.2) h7 (L := withChecksum (line2Body t cat)) rfl c2
  have hi64 : ∀ n : ℕ, n ≤ 99999 → n ≤ i64Max := fun n h => by unfold i64Max; omega
  unfold parseTle col
  rw [if_neg (by rw [d1]; simp), if_neg (by rw [d2]; simp)]
  simp only [p0, p1, p2, p3, p4, p5, p6, p7, p8, p9, q0, q1, q2, q3, q4, q5, q6, q7, q8, Res.orPanic,
    Res.bind_ok, e1, e2, hps, ofByte_asChar]
  rw [if_neg (by decide), if_neg (by decide)]
  rw [parse_zint_col 2 (yy2 t) (hi64 _ (by have := (yy2_spec g).1; omega)), parse_fmtZero, parse_formatSigned hndr,
    parse_formatAssumed g.nDdot, parse_formatAssumed hb,
    parse_int_col 4 t.elset (hi64 _ (by have := g.elset; omega))]
  simp only [Res.bind_ok]
  rw [if_neg (by simp)]
  rw [parse_fixed_col, parse_fixed_col, parse_fixed_col, parse_fixed_col, parse_fixed_col,
    parse_ecc_col (eccScaled_lt g), parse_int_col 5 t.rev (hi64 _ g.rev), (yy2_spec g).2]
  simp only [Res.bind_ok]
  have hc1 : castU 16 (t.elset : ℤ) = t.elset := castU_small (by have := g.elset; omega)
  have hc2 : castU 32 (t.rev : ℤ) = t.rev := castU_small (by have := g.rev; omega)
  have hin : trim (padRight 8 t.intl) = t.intl := trim_padRight (tight_of_trim g.intl_tight) 8
  rw [hc1, hc2, hin]
  rfl

end Verif.Tle
