import Verif.CTle.Lemmas
import Verif.MeanElements.Props

/-!
# Two-line elements from C: theorems

A user of the C interface reads a pair of lines, makes a propagator of it and asks it for states.
-/

namespace Verif.CTle

open Verif.Text (Str Res F64 trim isWs isAscii)
open Verif.Tle (TLE DateTime parseTle formatTle yearLen Guards)
open Verif.Tle.Props (Recovers)
open Verif.MeanElements (Elements Gravity Vec constants motionRad)
open Verif.MeanElements.Spec (OnOrbit)
open Verif.Ffi (Status)

/-- An allocator that returns addresses that are free and not null. -/
def Alloc.Good (A : Alloc) : Prop := ∀ h, A h ≠ 0 ∧ h (A h) = none

/-! ## Reading -/

/-- The answer of the reader: a new handle to the set that the Rust reader makes of the trimmed lines, a null pointer, an
error or a caught panic; and nothing else on the heap is touched. -/
theorem parse_answer (utcOk : DateTime → Bool) {A : Alloc} (hA : A.Good) (s1 s2 : Str) {out : Addr} (ho : out ≠ 0) (h : Heap) :
    (∀ t, parseTle utcOk (trim s1) (trim s2) = .ok t → ∃ p h', parse utcOk A (.text s1) (.text s2) out h = (.ok, h', some p) ∧
        p ≠ 0 ∧ h p = none ∧ asTle h' p = some t ∧ ∀ q, q ≠ p → h' q = h q) ∧
    (∀ e, parseTle utcOk (trim s1) (trim s2) = .err e → parse utcOk A (.text s1) (.text s2) out h = (.invalidArgument, h, none)) ∧
    (parseTle utcOk (trim s1) (trim s2) = .panic → parse utcOk A (.text s1) (.text s2) out h = (.internalPanic, h, none)) := by
  unfold parse
  rw [if_neg ho]
  refine ⟨fun t e => ?_, fun e he => ?_, fun e => ?_⟩
  · refine ⟨A h, fun a => if a = A h then some (.tle t) else h a, by simp only [CStr.decoded, e, box], (hA h).1, (hA h).2, ?_, ?_⟩
    · simp [asTle]
    · intro q hq; simp [hq]
  · simp only [CStr.decoded, he]
  · simp only [CStr.decoded, e]

/-- Blanks around the lines make no difference. -/
theorem blanks_ignored (utcOk : DateTime → Bool) (A : Alloc) {a1 s1 b1 a2 s2 b2 : Str} (h1 : ∀ c ∈ a1 ++ b1, isWs c = true)
    (h2 : ∀ c ∈ a2 ++ b2, isWs c = true) (out : Addr) (h : Heap) :
    parse utcOk A (.text (a1 ++ (s1 ++ b1))) (.text (a2 ++ (s2 ++ b2))) out h = parse utcOk A (.text s1) (.text s2) out h := by
  have e1 := trim_blank (a := a1) (b := b1) (s := s1) (fun c hc => h1 c (by simp [hc])) (fun c hc => h1 c (by simp [hc]))
  have e2 := trim_blank (a := a2) (b := b2) (s := s2) (fun c hc => h2 c (by simp [hc])) (fun c hc => h2 c (by simp [hc]))
  unfold parse
  simp only [CStr.decoded, e1, e2]

/-- Text that is not UTF-8 is refused, whatever the other line. -/
theorem not_utf8 (utcOk : DateTime → Bool) (A : Alloc) (l : CStr) (hl : l ≠ .null) {out : Addr} (ho : out ≠ 0) (h : Heap) :
    parse utcOk A .notUtf8 l out h = (.invalidArgument, h, none) := by
  unfold parse
  rw [if_neg ho]
  cases l with
  | null => exact absurd rfl hl
  | notUtf8 => rfl
  | text s => rfl

/-! ## Making a propagator -/

/-- The set has a finite derivative and a finite positive mean motion. -/
def Moving (t : TLE F64) : Prop := (∃ d, t.nDot = .num d) ∧ ∃ n : ℚ, 0 < n ∧ t.meanMotion = .num n

/-- The four angles are numbers. -/
def Angles (t : TLE F64) : Prop :=
  (∃ x, t.inclination = .num x) ∧ (∃ x, t.raan = .num x) ∧ (∃ x, t.argp = .num x) ∧ ∃ x, t.meanAnomaly = .num x

noncomputable def angle (x : F64) : ℝ := (real x).getD 0 * (Real.pi / 180)

theorem real_num (q : ℚ) : real (.num q) = some (q : ℝ) := rfl
theorem real_inf (b : Bool) : real (.inf b) = none := rfl
theorem real_nan : real .nan = none := rfl

theorem prepare_iff (julian : DateTime → ℝ) {t : TLE F64} (he : 0 ≤ t.ecc ∧ t.ecc < 1) (hy : 1950 ≤ t.epoch.year) (g : Gravity) :
    (Moving t ↔ (prepare julian t g).isSome) ∧
    ∀ q, prepare julian t g = some q → q.gravity = g ∧ q.epoch = julian t.epoch ∧ (q.elements.isSome ↔ Angles t) ∧
      ∀ el, q.elements = some el → el.inc = angle t.inclination ∧ el.raan = angle t.raan ∧ el.argp = angle t.argp ∧
        el.anomaly = angle t.meanAnomaly ∧ el.ecc = t.ecc ∧ real t.meanMotion = some el.motion ∧ 0 < el.motion ∧
        real t.nDot = some el.motionDot ∧ el.motionDdot = t.nDdot ∧ el.bstar = t.bstar := by
  have e0 : (0 : ℝ) ≤ t.ecc := by exact_mod_cast he.1
  have e1 : (t.ecc : ℝ) < 1 := by exact_mod_cast he.2
  have hang : ((real t.inclination).isSome && (real t.raan).isSome && (real t.argp).isSome && (real t.meanAnomaly).isSome) = true
      ↔ Angles t := by
    have k : ∀ x : F64, (real x).isSome = true ↔ ∃ q, x = .num q := by
      intro x; cases x <;> simp [real]
    simp only [Bool.and_eq_true, k, Angles]
    tauto
  unfold prepare
  cases hd : t.nDot with
  | inf b => simp [real, Moving, hd]
  | nan => simp [real, Moving, hd]
  | num d =>
    simp only [real_num]
    cases hm : t.meanMotion with
    | inf b =>
      have hr := (MeanElements.reject_iff ⟨t.epoch.year, (real t.inclination).getD 0, (real t.raan).getD 0, some (t.ecc : ℝ),
        (real t.argp).getD 0, (real t.meanAnomaly).getD 0, none, d, (t.nDdot : ℝ), (t.bstar : ℝ)⟩ g).mpr (by simp)
      obtain ⟨x, hx⟩ := hr
      simp [hx, Moving, hm, real_inf, real_nan]
    | nan =>
      have hr := (MeanElements.reject_iff ⟨t.epoch.year, (real t.inclination).getD 0, (real t.raan).getD 0, some (t.ecc : ℝ),
        (real t.argp).getD 0, (real t.meanAnomaly).getD 0, none, d, (t.nDdot : ℝ), (t.bstar : ℝ)⟩ g).mpr (by simp)
      obtain ⟨x, hx⟩ := hr
      simp [hx, Moving, hm, real_inf, real_nan]
    | num n =>
      by_cases hn : 0 < n
      · have hn' : (0 : ℝ) < n := by exact_mod_cast hn
        have ha := (MeanElements.accept_iff ⟨t.epoch.year, (real t.inclination).getD 0, (real t.raan).getD 0, some (t.ecc : ℝ),
          (real t.argp).getD 0, (real t.meanAnomaly).getD 0, some (n : ℝ), d, (t.nDdot : ℝ), (t.bstar : ℝ)⟩ g _ _).mpr
          ⟨hy, ⟨t.ecc, n, rfl, e0, e1, rfl, hn', rfl⟩, rfl⟩
        simp only [real_num, ha]
        refine ⟨⟨fun _ => rfl, fun _ => ⟨⟨d, hd⟩, n, hn, hm⟩⟩, ?_⟩
        intro q hq
        simp only [Option.some.injEq] at hq
        subst hq
        refine ⟨rfl, rfl, ?_, ?_⟩
        · rw [← hang]
          dsimp only
          split <;> simp_all
        · intro el hel
          dsimp only at hel
          split at hel
          · cases hel
            exact ⟨rfl, rfl, rfl, rfl, rfl, rfl, hn', rfl, rfl, rfl⟩
          · cases hel
      · have hr := (MeanElements.reject_iff ⟨t.epoch.year, (real t.inclination).getD 0, (real t.raan).getD 0, some (t.ecc : ℝ),
          (real t.argp).getD 0, (real t.meanAnomaly).getD 0, some (n : ℝ), d, (t.nDdot : ℝ), (t.bstar : ℝ)⟩ g).mpr (by
            rintro ⟨_, e, m, _, _, _, h4, h5⟩
            simp only [Option.some.injEq] at h4
            subst h4
            exact hn (by exact_mod_cast h5))
        obtain ⟨x, hx⟩ := hr
        simp only [real_num, hx]
        refine ⟨⟨?_, by simp⟩, by simp⟩
        rintro ⟨_, m, hm', hm2⟩
        rw [hm] at hm2
        cases hm2
        exact absurd hm' hn

/-- A set that has been read from any pair of lines makes a propagator exactly when its mean motion is a positive number and
its derivative a number; no other column matters, and the handle of the set is as before. -/
theorem new_iff (julian : DateTime → ℝ) {A : Alloc} (hA : A.Good) {utcOk : DateTime → Bool} {l1 l2 : Str} {t : TLE F64}
    (hr : parseTle utcOk l1 l2 = .ok t) {h : Heap} {tle out : Addr} (ht : tle ≠ 0) (ho : out ≠ 0) (hh : asTle h tle = some t)
    (model : Int) :
    (Moving t → ∃ p h' q, sgp4New julian A tle model out h = some (.ok, h', some p) ∧ p ≠ 0 ∧ h p = none ∧
      asPropagator h' p = some q ∧ (∀ a, a ≠ p → h' a = h a) ∧ asTle h' tle = some t ∧ q.epoch = julian t.epoch ∧
      q.gravity = gravityOf model ∧ (q.elements.isSome ↔ Angles t)) ∧
    (¬ Moving t → sgp4New julian A tle model out h = some (.invalidArgument, h, none)) := by
  obtain ⟨a0, a1, y0, _⟩ := read_range hr
  obtain ⟨p1, p2⟩ := prepare_iff julian ⟨a0, a1⟩ (by omega) (gravityOf model) (t := t)
  unfold sgp4New
  rw [if_neg ho, if_neg ht, hh]
  constructor
  · intro hm
    obtain ⟨q, hq⟩ := Option.isSome_iff_exists.mp (p1.mp hm)
    obtain ⟨g1, g2, g3, _⟩ := p2 q hq
    have hne : tle ≠ A h := by
      intro e
      have := (hA h).2
      rw [← e] at this
      simp [asTle, this] at hh
    refine ⟨A h, fun a => if a = A h then some (.propagator q) else h a, q, by simp only [Option.map_some, hq, box], (hA h).1, (hA h).2, by simp [asPropagator], ?_, ?_, g2, g1, g3⟩
    · intro a ha; simp [ha]
    · simpa [asTle, hne] using hh
  · intro hm
    have : prepare julian t (gravityOf model) = none := by
      by_contra hc
      exact hm (p1.mpr (Option.ne_none_iff_isSome.mp hc))
    simp only [Option.map_some, this]

/-- The gravity model asked for is the one reported, for the three codes that mean something. -/
theorem gravity_code {h : Heap} {p out : Addr} (hp : p ≠ 0) (ho : out ≠ 0) {q : Propagator} (hq : asPropagator h p = some q)
    {model : Int} (hg : q.gravity = gravityOf model) :
    gravityModel p out h = some (.ok, some (if model = 1 ∨ model = 2 then model else 0)) := by
  unfold gravityModel
  rw [if_neg ho, if_neg hp, hq]
  simp only [Option.map_some, hg, gravityOf]
  by_cases h1 : model = 1
  · simp [h1]
  · by_cases h2 : model = 2
    · simp [h2]
    · simp [h1, h2]

/-- Disagreement: a code that names no gravity model is not refused but taken for the first. -/
theorem unknown_gravity_accepted (julian : DateTime → ℝ) (A : Alloc) (tle out : Addr) (h : Heap) {model : Int}
    (hm : model ≠ 1) (hm' : model ≠ 2) : sgp4New julian A tle model out h = sgp4New julian A tle 0 out h := by
  unfold sgp4New gravityOf
  rw [if_neg hm, if_neg hm']
  rfl

/-- Disagreement: the second gravity model gives the states of the first; the sidereal time it is named after is used nowhere. -/
theorem second_model_is_first (el : Elements) (epoch jd : ℝ) :
    MeanElements.propagateAt el (constants .wgs72Iau) epoch jd = MeanElements.propagateAt el (constants .wgs72) epoch jd := rfl

/-! ## States -/

/-- The answer for a date. -/
theorem propagate_answer {h : Heap} {p op ov : Addr} (hp : p ≠ 0) (h1 : op ≠ 0) (h2 : ov ≠ 0) {q : Propagator}
    (hq : asPropagator h p = some q) (jd : Option ℝ) :
    ∃ s r, propagateAt p jd op ov h = some (s, r) ∧ (s = .ok ∨ s = .invalidArgument) ∧ (s = .ok ↔ r.isSome) ∧
      (s = .ok ↔ ∃ t el x, jd = some t ∧ q.elements = some el ∧
        MeanElements.propagate el (constants q.gravity) ((t - q.epoch) * 1440) = .ok x ∧ r = some x) := by
  unfold propagateAt
  rw [if_neg h1, if_neg h2, if_neg hp, hq]
  cases jd with
  | none => exact ⟨.invalidArgument, none, rfl, Or.inr rfl, by simp, by simp⟩
  | some t =>
    cases he : q.elements with
    | none => exact ⟨.invalidArgument, none, by simp [he], Or.inr rfl, by simp, by simp⟩
    | some el =>
      unfold MeanElements.propagateAt
      cases hx : MeanElements.propagate el (constants q.gravity) ((t - q.epoch) * 1440) with
      | error e => exact ⟨.invalidArgument, none, by simp [he, hx, Except.map], Or.inr rfl, by simp, by simp⟩
      | ok x =>
        exact ⟨.ok, some x, by simp [he, hx, Except.map], Or.inl rfl, by simp,
          ⟨fun _ => ⟨t, el, x, rfl, rfl, hx, rfl⟩, fun _ => rfl⟩⟩

/-- Disagreement: an angle that is not a number is accepted by the reader and by the propagator, and only every date fails. -/
theorem bad_angle_never_propagates {julian : DateTime → ℝ} {utcOk : DateTime → Bool} {l1 l2 : Str} {t : TLE F64}
    (hr : parseTle utcOk l1 l2 = .ok t) (ha : ¬ Angles t) {g : Gravity} {q : Propagator} (hq : prepare julian t g = some q)
    {h : Heap} {p op ov : Addr} (hp : p ≠ 0) (h1 : op ≠ 0) (h2 : ov ≠ 0) (hh : asPropagator h p = some q) (jd : Option ℝ) :
    propagateAt p jd op ov h = some (.invalidArgument, none) := by
  obtain ⟨a0, a1, y0, _⟩ := read_range hr
  obtain ⟨_, p2⟩ := prepare_iff julian ⟨a0, a1⟩ (by omega) g (t := t)
  obtain ⟨_, _, g3, _⟩ := p2 q hq
  have hn : q.elements = none := by
    by_contra hc
    exact ha (g3.mp (Option.ne_none_iff_isSome.mp hc))
  unfold propagateAt
  rw [if_neg h1, if_neg h2, if_neg hp, hh]
  cases jd with
  | none => rfl
  | some t => simp [hn]

/-- Such a pair of lines: an inclination column that says `nan`. -/
example : ∃ t, parseTle (fun _ => true) "1 25544U 98067A   08264.51782528 -.00002182  00000-0 -11606-4 0  2927".toList
    "2 25544      nan 247.4627 0006703 130.5360 325.0288 15.72125391563534".toList = .ok t ∧ ¬ Angles t ∧ Moving t := by
  have h : (match parseTle (fun _ => true) "1 25544U 98067A   08264.51782528 -.00002182  00000-0 -11606-4 0  2927".toList
      "2 25544      nan 247.4627 0006703 130.5360 325.0288 15.72125391563534".toList with
    | .ok t => decide (t.inclination = .nan ∧ t.nDot = .num (-2182 / 10 ^ 8) ∧ t.meanMotion = .num (1572125391 / 10 ^ 8))
    | _ => false) = true := by decide +kernel
  split at h
  · rename_i t ht
    obtain ⟨h1, h2, h3⟩ := of_decide_eq_true h
    refine ⟨t, ht, fun ⟨⟨x, hx⟩, _⟩ => ?_, ⟨_, h2⟩, _, by norm_num, h3⟩
    rw [h1] at hx
    cases hx
  · cases h

/-- The propagator outlives the set it was made from: releasing the handle of the set changes no answer. -/
theorem set_released {h : Heap} {tle p : Addr} (hne : p ≠ tle) (jd : Option ℝ) (op ov : Addr) :
    propagateAt p jd op ov (free tle h) = propagateAt p jd op ov h ∧ epochJd p op (free tle h) = epochJd p op h ∧
      gravityModel p op (free tle h) = gravityModel p op h := by
  have : asPropagator (free tle h) p = asPropagator h p := by
    unfold free asPropagator
    by_cases h0 : tle = 0
    · rw [if_pos h0]
    · rw [if_neg h0]
      simp only [if_neg hne]
  unfold propagateAt epochJd gravityModel
  rw [this]
  exact ⟨rfl, rfl, rfl⟩

/-! ## From the written lines to the states -/

theorem degrees {x y : ℚ} (h : |x - y| ≤ 1 / 2 / 10 ^ 4) : |angle (.num x) * (180 / Real.pi) - (y : ℝ)| ≤ 1 / 2 / 10 ^ 4 := by
  unfold angle
  rw [real_num, Option.getD_some]
  have : (x : ℝ) * (Real.pi / 180) * (180 / Real.pi) = x := by
    have := Real.pi_ne_zero
    field_simp
  rw [this]
  have := abs_le.mp h
  rw [abs_le]
  constructor
  · have := this.1; have h2 : ((-(1 / 2 / 10 ^ 4) : ℚ) : ℝ) ≤ ((x - y : ℚ) : ℝ) := by exact_mod_cast this
    push_cast at h2; exact h2
  · have := this.2; have h2 : ((x - y : ℚ) : ℝ) ≤ ((1 / 2 / 10 ^ 4 : ℚ) : ℝ) := by exact_mod_cast this
    push_cast at h2; exact h2

/-- C219: the two lines written for an element set, blanks around them or not, are read into a handle; the handle reports the
catalogue number; a propagator can be made of it with any gravity model, at the epoch to the printed precision; and each
state it gives is on the orbit with the eccentricity and inclination written, to the printed precision, and the size that
belongs to its mean motion of that moment. At the epoch itself it does give a state when the eccentricity is below 0.9999. -/
theorem written_lines (t : TLE ℚ) (utcOk : DateTime → Bool) (g : Guards t) (hb : Tle.Spec.AssumedFits t.bstar)
    (hend : t.epoch.ordinal < yearLen t.epoch.year ∨ t.epoch.nanos < 86399999568000)
    (hutc : ∀ dt, dt.year = t.epoch.year → utcOk dt = true) (hn : 1 / 10 ^ 8 ≤ t.meanMotion)
    (julian : DateTime → ℝ) {A : Alloc} (hA : A.Good) (h : Heap) (model : Int) {out : Addr} (ho : out ≠ 0) :
    ∃ l1 l2, formatTle t = .ok (l1, l2) ∧
      ∀ a1 b1 a2 b2 : Str, (∀ c ∈ a1 ++ b1, isWs c = true) → (∀ c ∈ a2 ++ b2, isWs c = true) →
      ∃ p h', parse utcOk A (.text (a1 ++ (l1 ++ b1))) (.text (a2 ++ (l2 ++ b2))) out h = (.ok, h', some p) ∧
        noradId p out h' = some (.ok, some t.norad) ∧
        ∃ s h'' dt, ∃ el : Elements, sgp4New julian A p model out h' = some (.ok, h'', some s) ∧
          epochJd s out h'' = some (.ok, some (julian dt)) ∧ dt.year = t.epoch.year ∧
          |((dt.ordinal : ℤ) * 86400000000000 + dt.nanos) - ((t.epoch.ordinal : ℤ) * 86400000000000 + t.epoch.nanos)| ≤ 432000 ∧
          |el.inc * (180 / Real.pi) - (t.inclination : ℝ)| ≤ 1 / 2 / 10 ^ 4 ∧ |el.raan * (180 / Real.pi) - (t.raan : ℝ)| ≤ 1 / 2 / 10 ^ 4 ∧
          |el.argp * (180 / Real.pi) - (t.argp : ℝ)| ≤ 1 / 2 / 10 ^ 4 ∧
          |el.anomaly * (180 / Real.pi) - (t.meanAnomaly : ℝ)| ≤ 1 / 2 / 10 ^ 4 ∧ |el.ecc - (t.ecc : ℝ)| ≤ 1 / 2 / 10 ^ 7 ∧
          |el.motion - (t.meanMotion : ℝ)| ≤ 1 / 2 / 10 ^ 8 ∧
          (∀ jd r v, propagateAt s (some jd) out out h'' = some (.ok, some (r, v)) →
            ∃ n a raan argp, n = motionRad el (jd - julian dt) ∧ 0 < n ∧ 0 < a ∧ a ^ 3 * n ^ 2 = (constants (gravityOf model)).mu ∧
              (jd = julian dt → raan = el.raan ∧ argp = el.argp) ∧
              OnOrbit (constants (gravityOf model)).mu a el.ecc el.inc raan argp r v) ∧
          (el.ecc ≤ 0.9999 → ∃ x, propagateAt s (some (julian dt)) out out h'' = some (.ok, some x)) := by
  obtain ⟨l1, l2, t', hf, ⟨c1, d1, k1⟩, ⟨c2, d2, k2⟩, hp, hrec⟩ := Tle.Props.tle_round_trip_partial t utcOk g hb hend hutc
  refine ⟨l1, l2, hf, fun a1 b1 a2 b2 w1 w2 => ?_⟩
  rw [blanks_ignored utcOk A w1 w2 out h]
  have e1 : trim l1 = l1 := tight1 hp c1 k1
  have e2 : trim l2 = l2 := tight2 hp c2 k2
  obtain ⟨p, h', hq, hp0, _, hpt, _⟩ := (parse_answer utcOk hA l1 l2 ho h).1 t' (by rw [e1, e2]; exact hp)
  refine ⟨p, h', hq, ?_, ?_⟩
  · unfold noradId
    rw [if_neg ho, if_neg hp0, hpt]
    simp [hrec.norad]
  obtain ⟨d, hd, _⟩ := hrec.nDot
  obtain ⟨n, hn1, hn2⟩ := hrec.meanMotion
  obtain ⟨i, hi1, hi2⟩ := hrec.inclination
  obtain ⟨o, ho1, ho2⟩ := hrec.raan
  obtain ⟨w, hw1, hw2⟩ := hrec.argp
  obtain ⟨m, hm1, hm2⟩ := hrec.meanAnomaly
  have hnp : 0 < n := by
    rw [abs_le] at hn2
    have : (1 : ℚ) / 10 ^ 8 - 1 / 2 / 10 ^ 8 > 0 := by norm_num
    linarith [hn2.1]
  have hmov : Moving t' := ⟨⟨d, hd⟩, n, hnp, hn1⟩
  have hang : Angles t' := ⟨⟨i, hi1⟩, ⟨o, ho1⟩, ⟨w, hw1⟩, ⟨m, hm1⟩⟩
  obtain ⟨r0, r1, r2, _⟩ := read_range hp
  obtain ⟨q1, q2⟩ := prepare_iff julian ⟨r0, r1⟩ (by omega) (gravityOf model) (t := t')
  obtain ⟨q, hprep⟩ := Option.isSome_iff_exists.mp (q1.mp hmov)
  obtain ⟨g1, g2, g3, g4⟩ := q2 q hprep
  obtain ⟨el, hel⟩ := Option.isSome_iff_exists.mp (g3.mpr hang)
  obtain ⟨f1, f2, f3, f4, f5, f6, f7, _, _, _⟩ := g4 el hel
  have hnew : sgp4New julian A p model out h' = some (.ok, fun a => if a = A h' then some (.propagator q) else h' a, some (A h')) := by
    unfold sgp4New
    rw [if_neg ho, if_neg hp0, hpt]
    simp only [Option.map_some, hprep, box]
  have hs0 := (hA h').1
  have hasq : asPropagator (fun a => if a = A h' then some (.propagator q) else h' a) (A h') = some q := by simp [asPropagator]
  refine ⟨A h', _, t'.epoch, el, hnew, ?_, hrec.year, hrec.epoch, ?_, ?_, ?_, ?_, ?_, ?_, ?_, ?_⟩
  · unfold epochJd
    rw [if_neg ho, if_neg hs0, hasq]
    simp [g2]
  · rw [f1, hi1]; exact degrees hi2
  · rw [f2, ho1]; exact degrees ho2
  · rw [f3, hw1]; exact degrees hw2
  · rw [f4, hm1]; exact degrees hm2
  · rw [f5]
    have := (abs_le.mp hrec.ecc)
    rw [abs_le]
    constructor
    · have := this.1; have h2 : ((-(1 / 2 / 10 ^ 7) : ℚ) : ℝ) ≤ ((t'.ecc - t.ecc : ℚ) : ℝ) := by exact_mod_cast this
      push_cast at h2; exact h2
    · have := this.2; have h2 : ((t'.ecc - t.ecc : ℚ) : ℝ) ≤ ((1 / 2 / 10 ^ 7 : ℚ) : ℝ) := by exact_mod_cast this
      push_cast at h2; exact h2
  · rw [hn1, real_num] at f6
    simp only [Option.some.injEq] at f6
    rw [← f6]
    have := (abs_le.mp hn2)
    rw [abs_le]
    constructor
    · have := this.1; have h2 : ((-(1 / 2 / 10 ^ 8) : ℚ) : ℝ) ≤ ((n - t.meanMotion : ℚ) : ℝ) := by exact_mod_cast this
      push_cast at h2; exact h2
    · have := this.2; have h2 : ((n - t.meanMotion : ℚ) : ℝ) ≤ ((1 / 2 / 10 ^ 8 : ℚ) : ℝ) := by exact_mod_cast this
      push_cast at h2; exact h2
  · intro jd r v hst
    obtain ⟨st, res, z1, _, _, z4⟩ := propagate_answer hs0 ho ho hasq (some jd)
    rw [hst] at z1
    simp only [Option.some.injEq, Prod.mk.injEq] at z1
    obtain ⟨rfl, rfl⟩ := z1
    obtain ⟨t1, el1, x, y1, y2, y3, y4⟩ := z4.mp rfl
    simp only [Option.some.injEq] at y1 y4
    subst y1 y4
    rw [hel] at y2
    simp only [Option.some.injEq] at y2
    subst y2
    rw [g1, g2] at y3
    have he0 : 0 ≤ el.ecc := by rw [f5]; exact_mod_cast r0
    have he1 : el.ecc < 1 := by rw [f5]; exact_mod_cast r1
    obtain ⟨n', a, raan, argp, E, u1, u2, u3, u4, u5, u6, u7, _, _⟩ :=
      MeanElements.propagate_on_orbit (MeanElements.mu_pos _) he0 he1 y3
    refine ⟨n', a, raan, argp, ?_, u1, u3, u4, fun e => ⟨by rw [u5, e]; simp, by rw [u6, e]; simp⟩, u7⟩
    rw [u2, mul_div_assoc, div_self (by norm_num : (1440 : ℝ) ≠ 0), mul_one]
  · intro he9
    have he0 : 0 ≤ el.ecc := by rw [f5]; exact_mod_cast r0
    have hno : ¬ ∃ x, MeanElements.propagate el (constants q.gravity) 0 = .error x := by
      rw [MeanElements.propagate_fails_iff 0 (MeanElements.mu_pos _) he0 he9, not_le, zero_div, MeanElements.motion_at_epoch]
      have := Real.pi_pos
      positivity
    cases hx : MeanElements.propagate el (constants q.gravity) 0 with
    | error e => exact absurd ⟨e, hx⟩ hno
    | ok x =>
      obtain ⟨st, res, z1, z2, z3, z4⟩ := propagate_answer hs0 ho ho hasq (some (julian t'.epoch))
      have hok : st = .ok := by
        rcases z2 with z2 | z2
        · exact z2
        · exfalso
          have hz : (julian t'.epoch - q.epoch) * 1440 = 0 := by rw [g2]; ring
          cases hpa : MeanElements.propagateAt el (constants q.gravity) q.epoch (julian t'.epoch) with
          | error e =>
            unfold MeanElements.propagateAt at hpa
            rw [hz, hx] at hpa
            cases hpa
          | ok y =>
            unfold propagateAt at z1
            rw [if_neg ho, if_neg ho, if_neg hs0, hasq] at z1
            simp only [Option.map_some, hel, hpa, Option.some.injEq, Prod.mk.injEq] at z1
            rw [z2] at z1
            cases z1.1
      obtain ⟨y, hy⟩ := Option.isSome_iff_exists.mp (z3.mp hok)
      exact ⟨y, by rw [z1, hok, hy]⟩

/-- The station of the documentation meets the conditions. -/
example : Guards Tle.Props.iss ∧ Tle.Spec.AssumedFits Tle.Props.iss.bstar ∧
    Tle.Props.iss.epoch.ordinal < yearLen Tle.Props.iss.epoch.year ∧ 1 / 10 ^ 8 ≤ Tle.Props.iss.meanMotion := by
  refine ⟨Tle.Props.iss_guards, ?_, by decide, by norm_num [Tle.Props.iss]⟩
  refine Or.inr ⟨-4, by norm_num, by norm_num, ?_, ?_⟩
  · simp only [Tle.Props.iss]; rw [abs_of_neg (by norm_num)]; norm_num
  · simp only [Tle.Props.iss]; rw [abs_of_neg (by norm_num)]; norm_num

end Verif.CTle
